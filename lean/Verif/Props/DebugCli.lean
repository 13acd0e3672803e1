import Verif.Spec.DebugCli
import Verif.Props.Debug
/-
C84: the commands of the debugger.
-/
namespace Arwen.Props
open Arwen.Mock Arwen.Debug Arwen.Spec

/-! ### What flags say -/

theorem isGiven_nil {name : String} : ¬ IsGiven [] name := fun ⟨_, h⟩ => by cases h

theorem isGiven_cons {x : GivenFlag} {l : List GivenFlag} {name : String} : IsGiven (x :: l) name ↔ x.1 = name ∨ IsGiven l name := by
  constructor
  · rintro ⟨v, h⟩
    rcases List.mem_cons.1 h with h | h
    · exact .inl (by rw [← h])
    · exact .inr ⟨v, h⟩
  · rintro (h | ⟨v, h⟩)
    · exact ⟨x.2, by subst h; exact List.mem_cons_self⟩
    · exact ⟨v, List.mem_cons_of_mem _ h⟩

theorem lastGiven_given {l : List GivenFlag} {name : String} {v : Bytes} (h : LastGiven l name v) : IsGiven l name := by
  obtain ⟨b, a, rfl, _⟩ := h
  exact ⟨v, by simp⟩

/-- the last value given, computed -/
def lastOf (name : String) : List GivenFlag → Option Bytes
  | [] => none
  | x :: rest => (lastOf name rest).or (if x.1 = name then some x.2 else none)

theorem lastOf_none {name : String} {l : List GivenFlag} : lastOf name l = none ↔ ¬ IsGiven l name := by
  induction l with
  | nil => simp [lastOf, isGiven_nil]
  | cons x l ih =>
    rw [isGiven_cons]
    simp only [lastOf, Option.or_eq_none_iff, ih]
    grind

theorem lastOf_some {name : String} {l : List GivenFlag} {v : Bytes} : lastOf name l = some v ↔ LastGiven l name v := by
  induction l with
  | nil =>
    simp only [lastOf, reduceCtorEq, false_iff]
    rintro ⟨b, a, h, _⟩
    cases b <;> cases h
  | cons x l ih =>
    simp only [lastOf]
    constructor
    · intro h
      cases hl : lastOf name l with
      | some w =>
        rw [hl] at h
        cases h
        obtain ⟨b, a, h1, h2⟩ := ih.1 hl
        exact ⟨x :: b, a, by rw [h1]; rfl, h2⟩
      | none =>
        rw [hl] at h
        simp only [Option.none_or] at h
        split at h
        · rename_i hx
          cases h
          exact ⟨[], l, by subst hx; rfl, lastOf_none.1 hl⟩
        · cases h
    · rintro ⟨b, a, h1, h2⟩
      cases b with
      | nil =>
        cases h1
        rw [lastOf_none.2 h2]; simp
      | cons y b =>
        cases h1
        rw [ih.2 ⟨b, a, rfl, h2⟩]; rfl

theorem flagText_iff {l : List GivenFlag} {name : String} {d v : Bytes} : FlagText l name d v ↔ v = (lastOf name l).getD d := by
  unfold FlagText
  cases h : lastOf name l with
  | none =>
    have := lastOf_none.1 h
    constructor
    · rintro (h' | ⟨_, h'⟩)
      · exact absurd (lastGiven_given h') this
      · exact h'
    · exact fun h' => .inr ⟨this, h'⟩
  | some w =>
    have hw := lastOf_some.1 h
    constructor
    · rintro (h' | ⟨h', _⟩)
      · rw [← lastOf_some, h] at h'; cases h'; rfl
      · exact absurd (lastGiven_given hw) h'
    · intro h'; cases h'; exact .inl hw

theorem flagNumber_iff {P : Bytes → Option UInt64} {l : List GivenFlag} {name : String} {k : UInt64} :
    FlagNumber P l name k ↔ (lastOf name l).elim (some 0) P = some k := by
  unfold FlagNumber
  cases h : lastOf name l with
  | none =>
    have := lastOf_none.1 h
    constructor
    · rintro (⟨v, h', _⟩ | ⟨_, h'⟩)
      · exact absurd (lastGiven_given h') this
      · rw [h']; rfl
    · exact fun h' => .inr ⟨this, by simpa using h'.symm⟩
  | some w =>
    have hw := lastOf_some.1 h
    constructor
    · rintro (⟨v, h', h2⟩ | ⟨h', _⟩)
      · rw [← lastOf_some, h] at h'; cases h'; exact h2
      · exact absurd (lastGiven_given hw) h'
    · exact fun h' => .inl ⟨w, hw, h'⟩

/-! ### Reading flags -/

/-- the text in a field -/
def textIn (a : CliArgs) : StrField → Bytes
  | .serverAddress => a.serverAddress
  | .database => a.database
  | .world => a.world
  | .outcome => a.outcome
  | .impersonated => a.impersonated
  | .contractAddress => a.contractAddress
  | .function => a.function
  | .code => a.code
  | .codePath => a.codePath
  | .codeMetadata => a.codeMetadata
  | .value => a.value
  | .accountAddress => a.accountAddress
  | .accountBalance => a.accountBalance

/-- the number in a field -/
def numberIn (a : CliArgs) : NumField → UInt64
  | .gasLimit => a.gasLimit
  | .gasPrice => a.gasPrice
  | .accountNonce => a.accountNonce

theorem textIn_setStr (a : CliArgs) (v : Bytes) (s t : StrField) : textIn (a.setStr v s) t = if s = t then v else textIn a t := by
  cases s <;> cases t <;> rfl

theorem textIn_setNum (a : CliArgs) (v : UInt64) (s : NumField) (t : StrField) : textIn (a.setNum v s) t = textIn a t := by
  cases s <;> cases t <;> rfl

theorem numberIn_setStr (a : CliArgs) (v : Bytes) (s : StrField) (t : NumField) : numberIn (a.setStr v s) t = numberIn a t := by
  cases s <;> cases t <;> rfl

theorem numberIn_setNum (a : CliArgs) (v : UInt64) (s t : NumField) : numberIn (a.setNum v s) t = if s = t then v else numberIn a t := by
  cases s <;> cases t <;> rfl

theorem arguments_setStr (a : CliArgs) (v : Bytes) (s : StrField) : (a.setStr v s).arguments = a.arguments := by cases s <;> rfl
theorem arguments_setNum (a : CliArgs) (v : UInt64) (s : NumField) : (a.setNum v s).arguments = a.arguments := by cases s <;> rfl

/-- no two flags have the same name or the same destination -/
def Distinct (F : List Flag) : Prop := ∀ f ∈ F, ∀ g ∈ F, (f.name = g.name ∨ f.dest = g.dest) → f = g

theorem flags_distinct (c : Command) : Distinct c.flags := by
  unfold Distinct
  cases c <;> decide

theorem find_flag {F : List Flag} (hF : Distinct F) {f : Flag} (hf : f ∈ F) : F.find? (fun g => g.name == f.name) = some f := by
  cases h : F.find? fun g => g.name == f.name with
  | none => simpa using List.find?_eq_none.1 h f hf
  | some g =>
    have h1 := List.find?_some h
    rw [hF g (List.mem_of_find?_eq_some h) f hf (.inl (by simpa using h1))]

section
variable {P : Bytes → Option UInt64}

theorem parse_text {F : List Flag} (hF : Distinct F) {l : List GivenFlag} {a a' : CliArgs} (h : parseGiven P F l a = some a') (s : StrField) :
    textIn a' s = match F.find? (fun f => f.dest = .str s) with
      | none => textIn a s
      | some f => (lastOf f.name l).getD (textIn a s) := by
  induction l generalizing a with
  | nil =>
    cases h
    split <;> rfl
  | cons x l ih =>
    obtain ⟨name, v⟩ := x
    simp only [parseGiven] at h
    split at h
    · cases h
    rename_i g hg
    split at h
    · cases h
    rename_i b hb
    have hgF := List.mem_of_find?_eq_some hg
    have hgn : g.name = name := by simpa using List.find?_some hg
    rw [ih h]
    unfold setFlag at hb
    split
    · rename_i hn
      have hgd : g.dest ≠ .str s := by simpa using List.find?_eq_none.1 hn g hgF
      split at hb
      · rename_i t ht
        cases hb
        rw [textIn_setStr, if_neg]
        intro e; exact hgd (by rw [ht, e])
      · cases hp : P v with
        | none => rw [hp] at hb; cases hb
        | some k => rw [hp] at hb; cases hb; rw [textIn_setNum]
      · cases hb; cases s <;> rfl
    · rename_i f hf
      have hfF := List.mem_of_find?_eq_some hf
      have hfd : f.dest = .str s := by simpa using List.find?_some hf
      simp only [lastOf]
      split at hb
      · rename_i t ht
        cases hb
        rw [textIn_setStr]
        by_cases e : t = s
        · have : f = g := hF f hfF g hgF (.inr (by rw [hfd, ht, e]))
          rw [if_pos e, if_pos (by rw [this, hgn])]
          cases lastOf f.name l <;> rfl
        · rw [if_neg e, if_neg, Option.or_none]
          intro e'
          have : f = g := hF f hfF g hgF (.inl (by rw [hgn, ← e']))
          rw [this, ht] at hfd
          cases hfd; exact e rfl
      · rename_i t ht
        have hne : name ≠ f.name := by
          intro e'
          have : f = g := hF f hfF g hgF (.inl (by rw [hgn, ← e']))
          rw [this, ht] at hfd; cases hfd
        rw [if_neg hne, Option.or_none]
        cases hp : P v with
        | none => rw [hp] at hb; cases hb
        | some k => rw [hp] at hb; cases hb; rw [textIn_setNum]
      · rename_i ht
        have hne : name ≠ f.name := by
          intro e'
          have : f = g := hF f hfF g hgF (.inl (by rw [hgn, ← e']))
          rw [this, ht] at hfd; cases hfd
        rw [if_neg hne, Option.or_none]
        cases hb; cases s <;> rfl

theorem parse_number {F : List Flag} (hF : Distinct F) {l : List GivenFlag} {a a' : CliArgs} (h : parseGiven P F l a = some a') (s : NumField) :
    some (numberIn a' s) = match F.find? (fun f => f.dest = .num s) with
      | none => some (numberIn a s)
      | some f => (lastOf f.name l).elim (some (numberIn a s)) P := by
  induction l generalizing a with
  | nil =>
    cases h
    split <;> rfl
  | cons x l ih =>
    obtain ⟨name, v⟩ := x
    simp only [parseGiven] at h
    split at h
    · cases h
    rename_i g hg
    split at h
    · cases h
    rename_i b hb
    have hgF := List.mem_of_find?_eq_some hg
    have hgn : g.name = name := by simpa using List.find?_some hg
    rw [ih h]
    unfold setFlag at hb
    split
    · rename_i hn
      have hgd : g.dest ≠ .num s := by simpa using List.find?_eq_none.1 hn g hgF
      split at hb
      · cases hb; rw [numberIn_setStr]
      · rename_i t ht
        cases hp : P v with
        | none => rw [hp] at hb; cases hb
        | some k =>
          rw [hp] at hb; cases hb
          rw [numberIn_setNum, if_neg]
          intro e; exact hgd (by rw [ht, e])
      · cases hb; cases s <;> rfl
    · rename_i f hf
      have hfF := List.mem_of_find?_eq_some hf
      have hfd : f.dest = .num s := by simpa using List.find?_some hf
      have other : g.dest ≠ .num s → name ≠ f.name := by
        intro hd e'
        have : f = g := hF f hfF g hgF (.inl (by rw [hgn, ← e']))
        rw [this] at hfd; exact hd hfd
      simp only [lastOf]
      split at hb
      · rename_i t ht
        cases hb
        rw [if_neg (other (by rw [ht]; simp)), Option.or_none, numberIn_setStr]
      · rename_i t ht
        cases hp : P v with
        | none => rw [hp] at hb; cases hb
        | some k =>
          rw [hp] at hb; cases hb
          rw [numberIn_setNum]
          by_cases e : t = s
          · have : f = g := hF f hfF g hgF (.inr (by rw [hfd, ht, e]))
            rw [if_pos e, if_pos (by rw [this, hgn])]
            cases lastOf f.name l <;> simp [hp]
          · rw [if_neg e, if_neg (other (by rw [ht]; simpa using e)), Option.or_none]
      · rename_i ht
        rw [if_neg (other (by rw [ht]; simp)), Option.or_none]
        cases hb; cases s <;> rfl

theorem parse_arguments {F : List Flag} (hF : Distinct F) (hA : flagArguments ∈ F) {l : List GivenFlag} {a a' : CliArgs}
    (h : parseGiven P F l a = some a') : a'.arguments = a.arguments ++ (l.filter fun x => x.1 = "arguments").map (·.2) := by
  induction l generalizing a with
  | nil => cases h; simp
  | cons x l ih =>
    obtain ⟨name, v⟩ := x
    simp only [parseGiven] at h
    split at h
    · cases h
    rename_i g hg
    split at h
    · cases h
    rename_i b hb
    have hgF := List.mem_of_find?_eq_some hg
    have hgn : g.name = name := by simpa using List.find?_some hg
    rw [ih h]
    unfold setFlag at hb
    have other : g.dest ≠ .arguments → name ≠ "arguments" := by
      intro hd e'
      have : g = flagArguments := hF g hgF _ hA (.inl (by rw [hgn, e']; rfl))
      exact hd (by rw [this]; rfl)
    split at hb
    · rename_i t ht
      cases hb
      have := other (by rw [ht]; simp)
      simp [arguments_setStr, this]
    · rename_i t ht
      have := other (by rw [ht]; simp)
      cases hp : P v with
      | none => rw [hp] at hb; cases hb
      | some k => rw [hp] at hb; cases hb; simp [arguments_setNum, this]
    · rename_i ht
      have : g = flagArguments := hF g hgF _ hA (.inr (by rw [ht]; rfl))
      have hn : name = "arguments" := by rw [← hgn, this]; rfl
      cases hb
      simp [hn]

/-- flags are read unless one is unknown or has no number where one is due -/
theorem parse_some {F : List Flag} (hF : Distinct F) {l : List GivenFlag} {a : CliArgs} :
    (∃ a', parseGiven P F l a = some a') ↔
      ∀ name v, (name, v) ∈ l → ∃ f ∈ F, f.name = name ∧ ∀ s, f.dest = .num s → ∃ k, P v = some k := by
  induction l generalizing a with
  | nil => exact ⟨fun _ _ _ h => (by cases h), fun _ => ⟨a, rfl⟩⟩
  | cons x l ih =>
    obtain ⟨name, v⟩ := x
    constructor
    · rintro ⟨a', h⟩ name' v' hm
      simp only [parseGiven] at h
      split at h
      · cases h
      rename_i g hg
      split at h
      · cases h
      rename_i b hb
      rcases List.mem_cons.1 hm with e | hm
      · cases e
        refine ⟨g, List.mem_of_find?_eq_some hg, by simpa using List.find?_some hg, fun s hs => ?_⟩
        unfold setFlag at hb
        rw [hs] at hb
        cases hp : P v with
        | none => rw [hp] at hb; cases hb
        | some k => exact ⟨k, rfl⟩
      · exact ih.1 ⟨a', h⟩ name' v' hm
    · intro h
      obtain ⟨f, hf, rfl, hs⟩ := h name v List.mem_cons_self
      have hr : ∀ b, ∃ a', parseGiven P F l b = some a' := fun b => ih.2 fun n w hm => h n w (List.mem_cons_of_mem _ hm)
      simp only [parseGiven, find_flag hF hf]
      have : ∃ b, setFlag P f v a = some b := by
        unfold setFlag
        split
        · exact ⟨_, rfl⟩
        · rename_i s hd
          obtain ⟨k, hk⟩ := hs s hd
          exact ⟨_, by rw [hk]; rfl⟩
        · exact ⟨_, rfl⟩
      obtain ⟨b, hb⟩ := this
      rw [hb]
      exact hr b

/-! ### Commands -/

/-- the flag has its default in these arguments -/
def hasDefault (a : CliArgs) (f : Flag) : Bool :=
  match f.dest with
  | .str s => textIn a s == f.default
  | .num s => numberIn a s == 0
  | .arguments => a.arguments == []

theorem defaults_set (c : Command) : ∀ f ∈ c.flags, hasDefault (c.flags.foldl applyFlag {}) f = true := by
  cases c <;> decide

theorem rest_empty (c : Command) (s : StrField) (h : ∀ f ∈ c.flags, f.dest ≠ .str s) : textIn (c.flags.foldl applyFlag {}) s = [] := by
  revert h
  cases c <;> cases s <;> first | exact fun _ => rfl | exact fun h => absurd h (by decide)

theorem rest_zero (c : Command) (s : NumField) (h : ∀ f ∈ c.flags, f.dest ≠ .num s) : numberIn (c.flags.foldl applyFlag {}) s = 0 := by
  revert h
  cases c <;> cases s <;> first | exact fun _ => rfl | exact fun h => absurd h (by decide)

theorem none_first (c : Command) : (c.flags.foldl applyFlag {}).arguments = [] := by cases c <;> rfl

theorem find_dest {F : List Flag} (hF : Distinct F) {f : Flag} (hf : f ∈ F) : F.find? (fun g => g.dest = f.dest) = some f := by
  cases h : F.find? fun g => g.dest = f.dest with
  | none => simpa using List.find?_eq_none.1 h f hf
  | some g =>
    have h1 := List.find?_some h
    rw [hF g (List.mem_of_find?_eq_some h) f hf (.inr (by simpa using h1))]

theorem known_flags (c : Command) (name : String) : (∃ f ∈ c.flags, f.name = name) ↔ name ∈ mustHave c ∨ name ∈ mayHave c := by
  have h1 : ∀ f ∈ c.flags, f.name ∈ mustHave c ∨ f.name ∈ mayHave c := by cases c <;> decide
  have h2 : ∀ x ∈ mustHave c ++ mayHave c, ∃ f ∈ c.flags, f.name = x := by cases c <;> decide
  constructor
  · rintro ⟨f, hf, rfl⟩; exact h1 f hf
  · exact fun h => h2 name (List.mem_append.2 h)

theorem number_flags (c : Command) : ∀ f ∈ c.flags, (∃ s, f.dest = .num s) ↔ f.name ∈ numbers := by
  intro f hf
  have h : ∀ f ∈ c.flags, (match f.dest with | .num _ => true | _ => false) = decide (f.name ∈ numbers) := by cases c <;> decide
  have := h f hf
  constructor
  · rintro ⟨s, hs⟩; rw [hs] at this; simpa using this
  · intro hn
    rw [decide_eq_true hn] at this
    split at this
    · exact ⟨_, by assumption⟩
    · cases this

theorem required_flags (c : Command) : ∀ f ∈ c.flags, f.required = decide (f.name ∈ mustHave c) := by cases c <;> decide

theorem must_known (c : Command) : ∀ name ∈ mustHave c, ∃ f ∈ c.flags, f.name = name := fun name h => (known_flags c name).2 (.inl h)

theorem complete_iff (c : Command) (l : List GivenFlag) :
    (c.flags.all fun f => !f.required || l.any fun x => x.1 == f.name) = true ↔ ∀ name ∈ mustHave c, IsGiven l name := by
  rw [List.all_eq_true]
  have any : ∀ name, (l.any fun x => x.1 == name) = true ↔ IsGiven l name := by
    intro name
    rw [List.any_eq_true]
    constructor
    · rintro ⟨⟨m, v⟩, h1, h2⟩
      exact ⟨v, by simp only [beq_iff_eq] at h2; rw [← h2]; exact h1⟩
    · rintro ⟨v, h⟩; exact ⟨_, h, by simp⟩
  constructor
  · intro h name hn
    obtain ⟨f, hf, rfl⟩ := must_known c name hn
    have := h f hf
    rw [required_flags c f hf, decide_eq_true hn] at this
    exact (any _).1 (by simpa using this)
  · intro h f hf
    rw [required_flags c f hf]
    by_cases hn : f.name ∈ mustHave c
    · simp only [decide_eq_true hn, Bool.not_true, Bool.false_or]; exact (any _).2 (h _ hn)
    · simp [hn]

theorem parseCommand_some {c : Command} {l : List GivenFlag} : (∃ a, parseCommand P c l = some a) ↔ Acceptable P c l := by
  have hp := @parse_some P c.flags (flags_distinct c) l (c.flags.foldl applyFlag {})
  constructor
  · rintro ⟨a, h⟩
    unfold parseCommand at h
    split at h
    · cases h
    rename_i b hb
    split at h
    · rename_i hc
      have h1 := hp.1 ⟨b, hb⟩
      refine ⟨fun name v hm => ?_, fun name v hm hn => ?_, (complete_iff c l).1 hc⟩
      · obtain ⟨f, hf, rfl, _⟩ := h1 name v hm
        exact (known_flags c _).1 ⟨f, hf, rfl⟩
      · obtain ⟨f, hf, rfl, hk⟩ := h1 name v hm
        obtain ⟨s, hs⟩ := (number_flags c f hf).2 hn
        exact hk s hs
    · cases h
  · intro h
    obtain ⟨b, hb⟩ := hp.2 fun name v hm => by
      obtain ⟨f, hf, rfl⟩ := (known_flags c name).2 (h.known name v hm)
      exact ⟨f, hf, rfl, fun s hs => h.number f.name v hm ((number_flags c f hf).1 ⟨s, hs⟩)⟩
    exact ⟨b, by unfold parseCommand; rw [hb]; simp only [(complete_iff c l).2 h.complete, if_true]⟩

theorem parseCommand_given {c : Command} {l : List GivenFlag} {a : CliArgs} (h : parseCommand P c l = some a) :
    parseGiven P c.flags l (c.flags.foldl applyFlag {}) = some a := by
  unfold parseCommand at h
  split at h
  · cases h
  rename_i b hb
  split at h
  · cases h; exact hb
  · cases h

/-- a text of a flag that the command has -/
theorem command_text {c : Command} {l : List GivenFlag} {a : CliArgs} (h : parseCommand P c l = some a) {f : Flag} (hf : f ∈ c.flags)
    {s : StrField} (hs : f.dest = .str s) : FlagText l f.name f.default (textIn a s) := by
  rw [flagText_iff, parse_text (flags_distinct c) (parseCommand_given h) s, ← hs, find_dest (flags_distinct c) hf]
  have := defaults_set c f hf
  simp only [hasDefault, hs, beq_iff_eq] at this
  simp only [this]

/-- a text of a flag that the command does not have -/
theorem command_no_text {c : Command} {l : List GivenFlag} {a : CliArgs} (h : parseCommand P c l = some a) {s : StrField}
    (hs : ∀ f ∈ c.flags, f.dest ≠ .str s) {name : String} (hn : ¬ (name ∈ mustHave c ∨ name ∈ mayHave c)) :
    FlagText l name [] (textIn a s) := by
  refine .inr ⟨fun ⟨v, hv⟩ => hn ((parseCommand_some.1 ⟨a, h⟩).known name v hv), ?_⟩
  rw [parse_text (flags_distinct c) (parseCommand_given h) s, List.find?_eq_none.2 fun f hf => by simpa using hs f hf]
  exact rest_empty c s hs

theorem command_number {c : Command} {l : List GivenFlag} {a : CliArgs} (h : parseCommand P c l = some a) {f : Flag} (hf : f ∈ c.flags)
    {s : NumField} (hs : f.dest = .num s) : FlagNumber P l f.name (numberIn a s) := by
  rw [flagNumber_iff, parse_number (flags_distinct c) (parseCommand_given h) s, ← hs, find_dest (flags_distinct c) hf]
  have := defaults_set c f hf
  simp only [hasDefault, hs, beq_iff_eq] at this
  simp only [this]

theorem command_no_number {c : Command} {l : List GivenFlag} {a : CliArgs} (h : parseCommand P c l = some a) {s : NumField}
    (hs : ∀ f ∈ c.flags, f.dest ≠ .num s) {name : String} (hn : ¬ (name ∈ mustHave c ∨ name ∈ mayHave c)) :
    FlagNumber P l name (numberIn a s) := by
  refine .inr ⟨fun ⟨v, hv⟩ => hn ((parseCommand_some.1 ⟨a, h⟩).known name v hv), ?_⟩
  have := parse_number (flags_distinct c) (parseCommand_given h) s
  rw [List.find?_eq_none.2 fun f hf => by simpa using hs f hf] at this
  rw [Option.some.inj this]
  exact rest_zero c s hs

theorem command_arguments {c : Command} {l : List GivenFlag} {a : CliArgs} (h : parseCommand P c l = some a) (hA : flagArguments ∈ c.flags) :
    a.arguments = (l.filter fun x => x.1 = "arguments").map (·.2) := by
  rw [parse_arguments (flags_distinct c) hA (parseCommand_given h), none_first, List.nil_append]

theorem says_base {c : Command} {l : List GivenFlag} {a : CliArgs} (h : parseCommand P c l = some a) (hc : c ≠ .server) (act : Act) :
    SaysBase l (a.withBase act) :=
  ⟨command_text h (f := flagDatabase) (by cases c <;> first | exact absurd rfl hc | decide) (s := .database) rfl,
   command_text h (f := flagWorld) (by cases c <;> first | exact absurd rfl hc | decide) (s := .world) rfl,
   command_text h (f := flagOutcome) (by cases c <;> first | exact absurd rfl hc | decide) (s := .outcome) rfl⟩

theorem says_common {c : Command} {l : List GivenFlag} {a : CliArgs} (h : parseCommand P c l = some a)
    (hc : c ∈ [Command.deploy, .upgrade, .run]) : SaysCommon P l a.common :=
  have mem : ∀ f ∈ [flagImpersonated, flagValue, flagGasPrice, flagGasLimit, flagArguments], f ∈ c.flags := by
    revert hc; cases c <;> decide
  ⟨command_text h (f := flagImpersonated) (mem _ (by decide)) (s := .impersonated) rfl,
   command_text h (f := flagValue) (mem _ (by decide)) (s := .value) rfl,
   command_number h (f := flagGasPrice) (mem _ (by decide)) (s := .gasPrice) rfl,
   command_number h (f := flagGasLimit) (mem _ (by decide)) (s := .gasLimit) rfl,
   command_arguments h (mem _ (by decide))⟩

theorem says_common_query {l : List GivenFlag} {a : CliArgs} (h : parseCommand P .query l = some a) : SaysCommon P l a.common :=
  ⟨command_text h (f := flagImpersonated) (by decide) (s := .impersonated) rfl,
   command_no_text h (s := .value) (by decide) (by decide),
   command_no_number h (s := .gasPrice) (by decide) (by decide),
   command_number h (f := flagGasLimit) (by decide) (s := .gasLimit) rfl,
   command_arguments h (by decide)⟩

theorem says_code {c : Command} {l : List GivenFlag} {a : CliArgs} (h : parseCommand P c l = some a)
    (hc : c ∈ [Command.deploy, .upgrade]) : SaysCode l a.codeOf :=
  have mem : ∀ f ∈ [flagCode, flagCodePath, flagCodeMetadata], f ∈ c.flags := by revert hc; cases c <;> decide
  ⟨command_text h (f := flagCode) (mem _ (by decide)) (s := .code) rfl,
   command_text h (f := flagCodePath) (mem _ (by decide)) (s := .codePath) rfl,
   command_text h (f := flagCodeMetadata) (mem _ (by decide)) (s := .codeMetadata) rfl⟩

theorem parse_asks {c : Command} {l : List GivenFlag} {a : CliArgs} (h : parseCommand P c l = some a) : AsksFor P l c (a.task c) := by
  cases c with
  | server => exact .server (command_text h (f := flagServerAddress) (by decide) (s := .serverAddress) rfl)
  | deploy => exact .deploy (says_base h (by decide) _) rfl (says_common h (by decide)) (says_code h (by decide))
  | upgrade =>
    exact .upgrade (says_base h (by decide) _) rfl (says_common h (by decide)) (says_code h (by decide))
      (command_text h (f := flagContract) (by decide) (s := .contractAddress) rfl)
  | run =>
    exact .run (says_base h (by decide) _) rfl (says_common h (by decide))
      (command_text h (f := flagContract) (by decide) (s := .contractAddress) rfl)
      (command_text h (f := flagFunction) (by decide) (s := .function) rfl)
  | query =>
    exact .query (says_base h (by decide) _) rfl (says_common_query h)
      (command_text h (f := flagContract) (by decide) (s := .contractAddress) rfl)
      (command_text h (f := flagFunction) (by decide) (s := .function) rfl)
  | createAccount =>
    exact .createAccount (says_base h (by decide) _) rfl
      (command_text h (f := flagAccountAddress) (by decide) (s := .accountAddress) rfl)
      (command_text h (f := flagAccountBalance) (by decide) (s := .accountBalance) rfl)
      (command_number h (f := flagAccountNonce) (by decide) (s := .accountNonce) rfl)

/-! ### Flags ask for one thing -/

theorem flagText_one {l : List GivenFlag} {name : String} {d v w : Bytes} (h : FlagText l name d v) (h' : FlagText l name d w) : v = w := by
  rw [flagText_iff] at h h'; rw [h, h']

theorem flagNumber_one {l : List GivenFlag} {name : String} {j k : UInt64} (h : FlagNumber P l name j) (h' : FlagNumber P l name k) : j = k := by
  rw [flagNumber_iff] at h h'; exact Option.some.inj (h.symm.trans h')

theorem saysCommon_one {l : List GivenFlag} {c c' : Common} (h : SaysCommon P l c) (h' : SaysCommon P l c') : c = c' := by
  cases c; cases c'
  obtain ⟨h1, h2, h3, h4, h5⟩ := h
  obtain ⟨h1', h2', h3', h4', h5'⟩ := h'
  cases flagText_one h1 h1'; cases flagText_one h2 h2'; cases flagNumber_one h3 h3'; cases flagNumber_one h4 h4'
  simp only at h5 h5'
  rw [h5, h5']

theorem saysCode_one {l : List GivenFlag} {c c' : CodeOf} (h : SaysCode l c) (h' : SaysCode l c') : c = c' := by
  cases c; cases c'
  obtain ⟨h1, h2, h3⟩ := h
  obtain ⟨h1', h2', h3'⟩ := h'
  cases flagText_one h1 h1'; cases flagText_one h2 h2'; cases flagText_one h3 h3'; rfl

theorem saysBase_one {l : List GivenFlag} {r r' : Req} (h : SaysBase l r) (h' : SaysBase l r') (ha : r.act = r'.act) : r = r' := by
  cases r; cases r'
  obtain ⟨h1, h2, h3⟩ := h
  obtain ⟨h1', h2', h3'⟩ := h'
  cases flagText_one h1 h1'; cases flagText_one h2 h2'; cases flagText_one h3 h3'; cases ha; rfl

/-- **C84.** What a command is asked for is determined by its flags. -/
theorem c84_one {c : Command} {l : List GivenFlag} {t t' : Task} (h : AsksFor P l c t) (h' : AsksFor P l c t') : t = t' := by
  cases h with
  | server h1 => cases h' with | server h1' => rw [flagText_one h1 h1']
  | deploy b a k e =>
    cases h' with
    | deploy b' a' k' e' => rw [saysBase_one b b' (by rw [a, a', saysCommon_one k k', saysCode_one e e'])]
  | upgrade b a k e x =>
    cases h' with
    | upgrade b' a' k' e' x' => rw [saysBase_one b b' (by rw [a, a', saysCommon_one k k', saysCode_one e e', flagText_one x x'])]
  | run b a k x y =>
    cases h' with
    | run b' a' k' x' y' => rw [saysBase_one b b' (by rw [a, a', saysCommon_one k k', flagText_one x x', flagText_one y y'])]
  | query b a k x y =>
    cases h' with
    | query b' a' k' x' y' => rw [saysBase_one b b' (by rw [a, a', saysCommon_one k k', flagText_one x x', flagText_one y y'])]
  | createAccount b a x y z =>
    cases h' with
    | createAccount b' a' x' y' z' =>
      rw [saysBase_one b b' (by rw [a, a', flagText_one x x', flagText_one y y', flagNumber_one z z'])]

end

end Arwen.Props
