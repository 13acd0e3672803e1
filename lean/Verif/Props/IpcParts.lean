import Verif.Props.IpcOutput
/-
Dialogues and hook calls between the processes: C36, C38.
-/
namespace Arwen.Props
open Arwen Arwen.Spec Arwen.Ipc

/-! ### C36: dialogues -/

theorem Side.other_other (x : Side) : x.other.other = x := by cases x <;> rfl
theorem sender_succ (n : Nat) : sender (n + 1) = (sender n).other := by
  unfold sender
  rcases Nat.mod_two_eq_zero_or_one n with h | h
  · rw [if_neg (show ¬ (n + 1) % 2 = 0 by omega), if_pos h]; rfl
  · rw [if_pos (show (n + 1) % 2 = 0 by omega), if_neg (show ¬ n % 2 = 0 by omega)]; rfl

/-- what holds in every dialogue of fewer than 2^32 messages; `n` messages were sent -/
structure Dialogue.Good (d : Dialogue) : Prop where
  nonces : ∀ i y m, d.log[i]? = some (y, m) → y = sender i ∧ m.nonce = UInt32.ofNat (i + 1)
  state : (d.turn = some (sender d.log.length) ∧ d.node.nonce = UInt32.ofNat d.log.length ∧ d.arwen.nonce = UInt32.ofNat d.log.length ∧
      d.accepted = (List.range d.log.length).map fun i => ((sender i).other, i)) ∨
    ∃ n, d.log.length = n + 1 ∧ d.turn = none ∧ (d.of (sender n)).nonce = UInt32.ofNat (n + 1) ∧
      (d.of (sender n).other).nonce = UInt32.ofNat n ∧
      d.accepted = (List.range n).map fun i => ((sender i).other, i)

theorem ofNat32_succ (n : Nat) : UInt32.ofNat n + 1 = UInt32.ofNat (n + 1) := by
  rw [UInt32.ofNat_add]; rfl

theorem ofNat32_inj {m n : Nat} (hm : m < 2 ^ 32) (hn : n < 2 ^ 32) (h : UInt32.ofNat m = UInt32.ofNat n) : m = n := by
  have := congrArg UInt32.toNat h
  rwa [UInt32.toNat_ofNat_of_lt' hm, UInt32.toNat_ofNat_of_lt' hn] at this

theorem of_set (d : Dialogue) (x : Side) (r : Messenger) : (d.set x r).of x = r := by cases x <;> rfl
theorem of_set_other (d : Dialogue) (x : Side) (r : Messenger) : (d.set x r).of x.other = d.of x.other := by cases x <;> rfl

theorem both_of (d : Dialogue) (v : UInt32) (x : Side) (h : (d.of x).nonce = v) (h' : (d.of x.other).nonce = v) :
    d.node.nonce = v ∧ d.arwen.nonce = v := by
  cases x
  · exact ⟨h, h'⟩
  · exact ⟨h', h⟩

/-- which messages a side can accept: the next one, if it is the receiver -/
theorem good_receive (d : Dialogue) (hd : Dialogue.Good d) (hl : d.log.length < 2 ^ 32 - 1) (x y : Side) (i : Nat) (m : Msg) (r : Messenger)
    (hi : d.log[i]? = some (y, m)) (hr : (d.of x).receive m = some r) :
    d.log.length = i + 1 ∧ d.turn = none ∧ x = (sender i).other ∧ d.accepted = (List.range i).map (fun j => ((sender j).other, j)) ∧
      r.nonce = UInt32.ofNat (i + 1) ∧ (d.of (sender i)).nonce = UInt32.ofNat (i + 1) := by
  have hlt : i < d.log.length := by
    rcases Nat.lt_or_ge i d.log.length with h | h
    · exact h
    · rw [List.getElem?_eq_none h] at hi; cases hi
  obtain ⟨_, hm⟩ := hd.nonces i y m hi
  unfold Messenger.receive at hr
  split at hr
  · cases hr
  · rename_i he
    have he : m.nonce = (d.of x).nonce + 1 := Decidable.byContradiction he
    cases hr
    rcases hd.state with ⟨_, h1, h2, _⟩ | ⟨n, hn, ht, h1, h2, ha⟩
    · exfalso
      have hx : (d.of x).nonce = UInt32.ofNat d.log.length := by cases x <;> assumption
      rw [hx, hm, ofNat32_succ] at he
      have := ofNat32_inj (by omega) (by omega) he
      omega
    · have hxy : x = sender n ∨ x = (sender n).other := by
        cases x <;> cases sender n <;> simp [Side.other]
      rcases hxy with rfl | rfl
      · exfalso
        rw [h1, hm, ofNat32_succ] at he
        have := ofNat32_inj (by omega) (by omega) he
        omega
      · rw [h2, hm, ofNat32_succ] at he
        have := ofNat32_inj (by omega) (by omega) he
        have : i = n := by omega
        subst this
        exact ⟨hn, ht, rfl, ha, hm, h1⟩

theorem good_step (d e : Dialogue) (hd : Dialogue.Good d) (hs : d.Step e) (hl : e.log.length < 2 ^ 32 - 1) : Dialogue.Good e := by
  cases hs with
  | send x m ht =>
    have hl : (d.log ++ [(x, ((d.of x).send m).2)]).length < 2 ^ 32 - 1 := by cases x <;> exact hl
    rw [List.length_append, List.length_singleton] at hl
    rcases hd.state with ⟨h0, h1, h2, ha⟩ | ⟨n, hn, ht', _⟩
    · have hx : x = sender d.log.length := by rw [ht] at h0; exact Option.some.inj h0
      have hxn : (d.of x).nonce = UInt32.ofNat d.log.length := by cases x <;> assumption
      have hon : (d.of x.other).nonce = UInt32.ofNat d.log.length := by cases x <;> assumption
      have hs : ((d.of x).send m).1.nonce = UInt32.ofNat (d.log.length + 1) := by
        show (d.of x).nonce + 1 = _
        rw [hxn, ofNat32_succ]
      refine ⟨?_, .inr ⟨d.log.length, ?_, rfl, ?_, ?_, ?_⟩⟩
      · intro i y m' hi
        have hi : (d.log ++ [(x, ((d.of x).send m).2)])[i]? = some (y, m') := hi
        rcases Nat.lt_or_ge i d.log.length with h | h
        · rw [List.getElem?_append_left h] at hi
          exact hd.nonces i y m' hi
        · rw [List.getElem?_append_right h] at hi
          rcases Nat.lt_or_ge (i - d.log.length) 1 with h' | h'
          · have : i = d.log.length := by omega
            subst this
            rw [Nat.sub_self] at hi
            cases hi
            exact ⟨hx, hs⟩
          · rw [List.getElem?_eq_none (by simpa using h')] at hi
            cases hi
      · exact List.length_append
      · rw [← hx]
        have e := of_set d x ((d.of x).send m).1
        cases x <;> exact hs
      · rw [← hx]
        cases x <;> exact hon
      · cases x <;> exact ha
    · rw [ht] at ht'; cases ht'
  | accept x y i m r hi hr =>
    have hl : d.log.length < 2 ^ 32 - 1 := by cases x <;> exact hl
    obtain ⟨hn, ht, hx, ha, hr', ho⟩ := good_receive d hd hl x y i m r hi hr
    have hlog : (d.set x r).log = d.log := by cases x <;> rfl
    have hacc : (d.set x r).accepted = d.accepted := by cases x <;> rfl
    have hb := both_of (d.set x r) (UInt32.ofNat (i + 1)) x (by rw [of_set]; exact hr')
      (by rw [of_set_other, hx, Side.other_other]; exact ho)
    refine ⟨?_, .inl ⟨?_, ?_, ?_, ?_⟩⟩
    · intro j y' m' hj
      have hj : (d.set x r).log[j]? = some (y', m') := hj
      rw [hlog] at hj
      exact hd.nonces j y' m' hj
    · show some x = some (sender (d.set x r).log.length)
      rw [hlog, hn, sender_succ, hx]
    · show (d.set x r).node.nonce = UInt32.ofNat (d.set x r).log.length
      rw [hlog, hn]; exact hb.1
    · show (d.set x r).arwen.nonce = UInt32.ofNat (d.set x r).log.length
      rw [hlog, hn]; exact hb.2
    · show d.accepted ++ [(x, i)] = (List.range (d.set x r).log.length).map _
      rw [hlog, hn, List.range_succ, List.map_append, ha, hx]
      rfl
  | reject x y i m hi hr => exact hd

theorem step_length (d e : Dialogue) (hs : d.Step e) : d.log.length ≤ e.log.length := by
  cases hs with
  | send x m ht =>
    show d.log.length ≤ (d.log ++ [(x, ((d.of x).send m).2)]).length
    rw [List.length_append]
    exact Nat.le_add_right _ _
  | accept x y i m r hi hr => cases x <;> exact Nat.le_refl _
  | reject x y i m hi hr => exact Nat.le_refl _

theorem reached_good {d : Dialogue} (h : d.Reached) (hl : d.log.length < 2 ^ 32 - 1) : Dialogue.Good d := by
  induction h with
  | start => exact ⟨(fun i y m h => by cases h), .inl ⟨rfl, rfl, rfl, rfl⟩⟩
  | step _ hs ih => exact good_step _ _ (ih (Nat.lt_of_le_of_lt (step_length _ _ hs) hl)) hs hl

/-- **C36.** In every dialogue the messages are sent in turns and numbered 1, 2, 3, …, and what was accepted so far is every message
once, in order, by the side it was meant for; at most the last message is still under way. -/
theorem c36_in_step (d : Dialogue) (h : d.Reached) (hl : d.log.length < 2 ^ 32 - 1) :
    (∀ i y m, d.log[i]? = some (y, m) → y = sender i ∧ m.nonce.toNat = i + 1) ∧
    ∃ n, (n = d.log.length ∨ n + 1 = d.log.length) ∧ d.accepted = (List.range n).map fun i => ((sender i).other, i) := by
  have hg := reached_good h hl
  refine ⟨?_, ?_⟩
  · intro i y m hi
    obtain ⟨h1, h2⟩ := hg.nonces i y m hi
    have hlt : i < d.log.length := by
      rcases Nat.lt_or_ge i d.log.length with h | h
      · exact h
      · rw [List.getElem?_eq_none h] at hi; cases hi
    refine ⟨h1, ?_⟩
    rw [h2, UInt32.toNat_ofNat_of_lt' (show i + 1 < UInt32.size by show i + 1 < 2 ^ 32; omega)]
  · rcases hg.state with ⟨_, _, _, ha⟩ | ⟨n, hn, _, _, _, ha⟩
    · exact ⟨_, .inl rfl, ha⟩
    · exact ⟨n, .inr hn.symm, ha⟩

/-- **C36.** A message is accepted only if it is the next one: it was not accepted before, all earlier ones were, and it was sent by
the other side. So a duplicated, late or reflected message is rejected. -/
theorem c36_only_next (d : Dialogue) (h : d.Reached) (hl : d.log.length < 2 ^ 32 - 1) (x y : Side) (i : Nat) (m : Msg) (r : Messenger)
    (hi : d.log[i]? = some (y, m)) (hr : (d.of x).receive m = some r) :
    x = y.other ∧ d.accepted = (List.range i).map fun j => ((sender j).other, j) := by
  have hg := reached_good h hl
  obtain ⟨_, _, hx, ha, _⟩ := good_receive d hg hl x y i m r hi hr
  exact ⟨by rw [hx, (hg.nonces i y m hi).1], ha⟩

/-- **C36.** The message that is under way is accepted by the side it was meant for when it arrives. -/
theorem c36_next (d : Dialogue) (h : d.Reached) (hl : d.log.length < 2 ^ 32 - 1) (ht : d.turn = none) :
    ∃ n y m r, d.log.length = n + 1 ∧ d.log[n]? = some (y, m) ∧ (d.of y.other).receive m = some r := by
  have hg := reached_good h hl
  rcases hg.state with ⟨h0, _⟩ | ⟨n, hn, _, _, h2, _⟩
  · rw [ht] at h0; cases h0
  · have hlt : n < d.log.length := by omega
    have e := List.getElem?_eq_getElem hlt
    obtain ⟨hy, hm⟩ := hg.nonces n d.log[n].1 d.log[n].2 e
    refine ⟨n, d.log[n].1, d.log[n].2, { nonce := d.log[n].2.nonce }, hn, e, ?_⟩
    rw [Messenger.receive, if_neg]
    intro hne
    apply hne
    rw [hm, hy, h2, ofNat32_succ]

/-- **C36.** A messenger that is reset starts again at zero: its next message has number 1, and so has the one it accepts. -/
theorem c36_reset (r : Messenger) (m : Msg) : (r.reset.send m).2.nonce = 1 ∧
    ∀ r', r.reset.receive m = some r' → m.nonce = 1 := by
  refine ⟨rfl, ?_⟩
  intro r' h
  unfold Messenger.receive at h
  split at h
  · cases h
  · rename_i he
    exact Decidable.byContradiction he

/-- **C36.** Sending and receiving count up by one; a message that is rejected leaves the messenger as it was (its number is one off). -/
theorem c36_count (r : Messenger) (m : Msg) : (r.send m).1.nonce = r.nonce + 1 ∧ (r.send m).2.nonce = r.nonce + 1 ∧
    ∀ r', r.receive m = some r' ↔ m.nonce = r.nonce + 1 ∧ r'.nonce = r.nonce + 1 := by
  refine ⟨rfl, rfl, ?_⟩
  intro r'
  unfold Messenger.receive
  split
  · rename_i h
    constructor
    · intro e; cases e
    · rintro ⟨h1, _⟩; exact absurd h1 h
  · rename_i h
    have h := Decidable.not_not.mp h
    constructor
    · intro e; cases e; exact ⟨h, h⟩
    · rintro ⟨_, h2⟩
      rw [h, ← h2]

/-- a dialogue of three messages: a request, a question and its answer, with a duplicate in between -/
theorem c36_example : ∃ d : Dialogue, d.Reached ∧ d.log.length = 3 ∧ d.accepted = [(.arwen, 0), (.node, 1), (.arwen, 2)] := by
  have m : Msg := { kind := .stop, body := .stop }
  have d1 := Dialogue.Reached.step .start (.send {} .node { kind := .contractCallRequest, body := .stop } rfl)
  have d2 := d1.step (.accept _ .arwen .node 0 _ _ rfl rfl)
  have d2' := d2.step (.reject _ .arwen .node 0 _ rfl rfl)
  have d3 := d2'.step (.send _ .arwen { kind := .lastNonceRequest, body := .stop } rfl)
  have d4 := d3.step (.accept _ .node .arwen 1 _ _ rfl rfl)
  have d5 := d4.step (.send _ .node { kind := .lastNonceResponse, body := .stop } rfl)
  exact ⟨_, d5.step (.accept _ .arwen .node 2 _ _ rfl rfl), rfl, rfl⟩

/-- Messages are told apart within one dialogue only: a first message of an earlier dialogue that arrives late is accepted after a
reset. -/
theorem c36_stale_neg : ∃ (old new : Msg) (r : Messenger), old.kind ≠ new.kind ∧
    (({} : Messenger).send old).2.nonce = (({} : Messenger).send new).2.nonce ∧
    (r.reset.receive (({} : Messenger).send old).2).isSome :=
  ⟨{ kind := .contractCallRequest, body := .stop }, { kind := .versionRequest, body := .versionRequest }, { nonce := 8 },
    by decide, rfl, rfl⟩

/-! ### C38: hook calls -/

variable {W : Type}

/-- what the tables of messages say about the functions that the node recognises -/
theorem tables (f : HookFn) (hu : ¬ Unrecognised f) (hn : f ≠ .isInterfaceNil) : ∃ kind, f.requestKind = some kind ∧
    creates kind = .request f ∧ isHookCall kind = true ∧ nodeReplier kind = some f ∧ creates f.replyKind = .response f ∧
    f.responseKind = f.replyKind := by
  unfold Unrecognised at hu
  cases f <;> first
    | exact absurd rfl hn
    | exact absurd (by decide) hu
    | exact ⟨_, rfl, rfl, rfl, rfl, rfl, rfl⟩

theorem unwire_wire (ord : Orders) (failed : Bool) (f : HookFn) (r : Result f) (h1 : f ≠ .getAllState)
    (h2 : f ≠ .processBuiltInFunction) (h3 : failed = false ∨ f ≠ .getUserAccount) : unwire f (wire ord failed f r) = some r := by
  cases f <;> first
    | exact absurd rfl h1
    | exact absurd rfl h2
    | (rcases h3 with rfl | h
       · rfl
       · exact absurd rfl h)
    | rfl

theorem unwire_some (ord : Orders) (failed : Bool) (f : HookFn) (r : Result f) : ∃ r', unwire f (wire ord failed f r) = some r' := by
  cases f
  case getAllState =>
    refine ⟨mapOf ((SerMap.new ord r).keys.zip (SerMap.new ord r).values), ?_⟩
    show (SerMap.new ord r).convert = _
    rw [SerMap.convert, if_neg (by simp [SerMap.new])]
  all_goals exact ⟨_, rfl⟩

/-- A question that the node recognises is answered by the replier of its own function, with the state of the node going on, if
the answer arrives in time; `r` is what is left of the result. -/
theorem askNode_run (N : Node W) (hp : PlainErrors N) (f : HookFn) (a : Args f) (s : Sys W) (hu : ¬ Unrecognised f)
    (hn : f ≠ .isInterfaceNil) (hs : s.node.nonce = s.arwen.nonce) (ht : (N.clock s.received : Int) ≤ s.remaining)
    (r : Result f) (hr : unwire f (wire N.ord (N.hook f a s.world).1.2.isSome f (N.hook f a s.world).1.1) = some r) :
    askNode N f a s = (.done (answer f (r, (N.hook f a s.world).1.2)),
      { s with node := { nonce := s.node.nonce + 1 + 1 }, arwen := { nonce := s.node.nonce + 1 + 1 },
               world := (N.hook f a s.world).2, remaining := s.remaining - N.clock s.received, received := s.received + 1 }) := by
  obtain ⟨kind, e1, e2, e3, e4, e5, e6⟩ := tables f hu hn
  obtain ⟨node, arwen, world, remaining, received⟩ := s
  dsimp only at hs ht hr ⊢
  have ha : ({ nonce := arwen.nonce + 1, kind := kind, body := .request f a } : Msg).arrived =
      { nonce := arwen.nonce + 1, kind := kind, body := .request f a } := by
    rw [Msg.arrived, if_pos]
    exact e2
  unfold askNode
  rw [e1]
  simp only [Messenger.send, ha]
  have hrec : node.receive ({ nonce := arwen.nonce + 1, kind := kind, body := .request f a } : Msg) =
      some { nonce := node.nonce + 1 } := by
    rw [Messenger.receive, if_neg]
    · simp only [hs]
    · simp only [hs]
      exact fun h => h rfl
  rw [nodeReceive]
  dsimp only
  rw [if_neg (by rintro ⟨_, h⟩; omega), hrec]
  dsimp only
  rw [if_neg (by omega)]
  dsimp only
  rw [e3, if_pos rfl, nodeReply]
  dsimp only
  rw [e4]
  dsimp only
  have hargs : argsOf f (.request f a) = some a := by
    rw [argsOf, dif_pos rfl]
  rw [reply, hargs]
  dsimp only
  generalize hq : N.hook f a world = q at hr ⊢
  obtain ⟨⟨res, err⟩, w'⟩ := q
  dsimp only at hr ⊢
  generalize hw : wire N.ord err.isSome f res = wr at hr ⊢
  have ha2 : ∀ t n, ({ nonce := n, kind := f.replyKind, error := t, body := .response f wr } : Msg).arrived =
      { nonce := n, kind := f.replyKind, error := t, body := .response f wr } := by
    intro t n
    rw [Msg.arrived, if_pos]
    exact e5
  rw [ha2]
  have hrec2 : ∀ t, ({ nonce := arwen.nonce + 1 } : Messenger).receive
      ({ nonce := node.nonce + 1 + 1, kind := f.replyKind, error := t, body := .response f wr } : Msg) =
      some { nonce := node.nonce + 1 + 1 } := by
    intro t
    rw [Messenger.receive, if_neg]
    simp only [hs]
    exact fun h => h rfl
  rw [hrec2]
  dsimp only
  have hread : ∀ n, gatewayReads N.errorf f ⟨n, f.replyKind, if f.fallible = true then setError err else [], .response f wr⟩ =
      some (answer f (r, err)) := by
    intro n
    rw [gatewayReads]
    dsimp only
    rw [if_neg (fun h => h e6.symm), dif_pos rfl, hr]
    dsimp only
    have hrev : f ≠ .revertToSnapshot := by
      rintro rfl
      exact hu (by unfold Unrecognised; decide)
    cases hf : f.fallible with
    | false =>
      rw [if_neg (by rintro ⟨h, _⟩; cases h)]
      simp only [answer, hf]
    | true =>
      rw [if_pos ⟨rfl, hrev⟩, if_pos rfl]
      cases err with
      | none =>
        simp only [setError, getError, answer, hf]
        rfl
      | some text =>
        obtain ⟨h1, h2⟩ := hp f a world text (by rw [hq])
        have e : getError N.errorf (setError (some text)) = some text := by
          show (if text.length = 0 then none else some (N.errorf text)) = _
          rw [if_neg (fun h => h1 (List.length_eq_zero_iff.mp h)), h2]
        rw [e]
        simp only [answer, hf]
  rw [hread]

/-- **C38 (partial).** Every question about the functions of the hook other than built-in functions, snapshots and the clearing of
compiled code reaches the hook with its arguments and brings back the answer that a direct question would get. -/
theorem c38_answered_partial (N : Node W) (hp : PlainErrors N) (f : HookFn) (a : Args f) (s : Sys W) (hf : Supported f)
    (hs : s.node.nonce = s.arwen.nonce) (ht : (N.clock s.received : Int) ≤ s.remaining) :
    askNode N f a s = (.done (answer f (N.hook f a s.world).1),
      { s with node := { nonce := s.node.nonce + 1 + 1 }, arwen := { nonce := s.node.nonce + 1 + 1 },
               world := (N.hook f a s.world).2, remaining := s.remaining - N.clock s.received, received := s.received + 1 }) := by
  obtain ⟨hu, hn, hm⟩ := hf
  have hb : f ≠ .processBuiltInFunction := fun h => hu (.inl h)
  by_cases h3 : (N.hook f a s.world).1.2.isSome = false ∨ f ≠ .getUserAccount
  · exact askNode_run N hp f a s hu hn hs ht _ (unwire_wire _ _ f _ hm hb h3)
  · obtain ⟨r', hr'⟩ := unwire_some N.ord (N.hook f a s.world).1.2.isSome f (N.hook f a s.world).1.1
    rw [askNode_run N hp f a s hu hn hs ht r' hr']
    have hfu : f = .getUserAccount := Decidable.byContradiction fun h => h3 (.inr h)
    have he : (N.hook f a s.world).1.2.isSome = true := by
      cases h : (N.hook f a s.world).1.2.isSome with
      | true => rfl
      | false => exact absurd (.inl h) h3
    obtain ⟨t, ht⟩ := Option.isSome_iff_exists.mp he
    have : ∀ x, answer f (x, (N.hook f a s.world).1.2) = .error t := by
      intro x
      rw [ht]
      subst hfu
      rfl
    have h2 := this (N.hook f a s.world).1.1
    rw [this r']
    rw [show (N.hook f a s.world).1 = ((N.hook f a s.world).1.1, (N.hook f a s.world).1.2) from rfl, h2]

/-- **C38.** The whole state of an account is brought back with the same value under every key. -/
theorem c38_state (N : Node W) (hp : PlainErrors N) (ho : Fair N.ord) (a : Bytes) (s : Sys W) (hs : s.node.nonce = s.arwen.nonce)
    (ht : (N.clock s.received : Int) ≤ s.remaining) (he : (N.hook .getAllState a s.world).1.2 = none) :
    ∃ m : AMap Bytes Bytes, (askNode N .getAllState a s).1 = .done (.ok m) ∧
      (∀ k, m.get? k = AMap.get? (N.hook .getAllState a s.world).1.1 k) ∧ (askNode N .getAllState a s).2.world = (N.hook .getAllState a s.world).2 := by
  obtain ⟨m, e, hm⟩ := c37_map N.ord ho (N.hook .getAllState a s.world).1.1
  have h := askNode_run N hp .getAllState a s (by unfold Unrecognised; decide) (by decide) hs ht m e
  rw [h]
  refine ⟨m, ?_, hm, rfl⟩
  rw [he]
  rfl

theorem runIpc_run {R : Type} (N : Node W) (hp : PlainErrors N) (p : IProg R) (s : Sys W) (ha : Asks Supported p)
    (hs : s.node.nonce = s.arwen.nonce)
    (ht : ∀ n, n < questions N.hook p s.world →
      (((List.range (n + 1)).map fun i => N.clock (s.received + i)).sum : Int) ≤ s.remaining) :
    ∃ t : Sys W, runIpc N p s = (.done (runDirect N.hook p s.world).1, t) ∧ t.world = (runDirect N.hook p s.world).2 ∧
      t.node.nonce = t.arwen.nonce ∧ t.received = s.received + questions N.hook p s.world ∧
      t.remaining = s.remaining - ((List.range (questions N.hook p s.world)).map fun i => N.clock (s.received + i)).sum := by
  induction p generalizing s with
  | ret r => exact ⟨s, rfl, rfl, hs, rfl, by simp [questions]⟩
  | ask f a k ih =>
    obtain ⟨hf, hk⟩ := ha
    have h0 := ht 0 (Nat.succ_pos _)
    have hc : (N.clock s.received : Int) ≤ s.remaining := by simpa using h0
    have hstep := c38_answered_partial N hp f a s hf hs hc
    have hsum : ∀ n, ((List.range (n + 1)).map fun i => N.clock (s.received + i)).sum =
        N.clock s.received + ((List.range n).map fun i => N.clock (s.received + 1 + i)).sum := by
      intro n
      rw [List.range_succ_eq_map, List.map_cons, List.sum_cons, List.map_map, Nat.add_zero]
      congr 2
      apply List.map_congr_left
      intro i _
      show N.clock (s.received + (i + 1)) = _
      rw [Nat.add_comm i 1, ← Nat.add_assoc]
    obtain ⟨t, e1, e2, e3, e4, e5⟩ := ih (answer f (N.hook f a s.world).1)
      { s with node := { nonce := s.node.nonce + 1 + 1 }, arwen := { nonce := s.node.nonce + 1 + 1 },
               world := (N.hook f a s.world).2, remaining := s.remaining - N.clock s.received, received := s.received + 1 }
      (hk _) rfl (by
        intro n hn
        have h := ht (n + 1) (Nat.succ_lt_succ hn)
        rw [hsum] at h
        dsimp only
        omega)
    refine ⟨t, ?_, e2, e3, ?_, ?_⟩
    · rw [runIpc, hstep]
      exact e1
    · rw [e4, questions]
      dsimp only
      omega
    · rw [e5, questions, hsum]
      dsimp only
      omega

theorem direct_map {R S : Type} (hook : (f : HookFn) → Args f → W → (Result f × Option Bytes) × W) (g : R → S) (p : IProg R) (w : W) :
    runDirect hook (arwenReply.mapProg g p) w = (g (runDirect hook p w).1, (runDirect hook p w).2) := by
  induction p generalizing w with
  | ret r => rfl
  | ask f a k ih => exact ih _ _

theorem questions_map {R S : Type} (hook : (f : HookFn) → Args f → W → (Result f × Option Bytes) × W) (g : R → S) (p : IProg R) (w : W) :
    questions hook (arwenReply.mapProg g p) w = questions hook p w := by
  induction p generalizing w with
  | ret r => rfl
  | ask f a k ih => exact congrArg (· + 1) (ih _ _)

theorem asks_map {R S : Type} (P : HookFn → Prop) (g : R → S) (p : IProg R) (h : Asks P p) : Asks P (arwenReply.mapProg g p) := by
  induction p with
  | ret r => trivial
  | ask f a k ih => exact ⟨h.1, fun x => ih x (h.2 x)⟩

theorem waiting_succ (N : Node W) (n : Nat) : waiting N (n + 1) = waiting N n + N.clock n := by
  rw [waiting, List.range_succ, List.map_append, List.sum_append]
  simp [waiting]

theorem waiting_mono (N : Node W) {m n : Nat} (h : m ≤ n) : waiting N m ≤ waiting N n := by
  induction h with
  | refl => exact Nat.le_refl _
  | step _ ih => rw [waiting_succ]; omega

theorem waiting_eq (N : Node W) (n : Nat) : ((List.range n).map fun i => N.clock (0 + i)).sum = waiting N n := by
  simp [waiting]

/-- a request and all that follows, if the virtual machine is run for it -/
theorem startLoop_run {H : Type} (N : Node W) (vm : Machine H) (hp : PlainErrors N) (request : Msg) (s : Sys W) (h : H)
    (hs : s.node.nonce = s.arwen.nonce) (ha : creates request.kind = request.body.goType)
    (p : IProg ((Option RawOutput × Option Bytes) × H))
    (hreply : ∀ n, arwenReply N.ord vm { request with nonce := n } h =
      some (arwenReply.mapProg (fun r => (contractResponse N.ord r.1, r.2)) p))
    (hask : Asks Supported p) (ht : (waiting N (questions N.hook p s.world + 1) : Int) ≤ N.maxLoopTime) :
    ∃ (n : UInt32) (t : Sys W),
      startLoop N vm request s h = (.ok { contractResponse N.ord (runDirect N.hook p s.world).1.1 with nonce := n }, t,
        (runDirect N.hook p s.world).1.2) ∧
      t.world = (runDirect N.hook p s.world).2 ∧ t.node = {} ∧ t.arwen = {} := by
  obtain ⟨node, arwen, world, remaining, received⟩ := s
  dsimp only at hs ht ⊢
  have harr : ∀ n, ({ request with nonce := n } : Msg).arrived = { request with nonce := n } := by
    intro n
    rw [Msg.arrived, if_pos]
    exact ha
  have hrec : arwen.receive ({ request with nonce := node.nonce + 1 } : Msg) = some { nonce := node.nonce + 1 } := by
    rw [Messenger.receive, if_neg]
    simp only [hs]
    exact fun h => h rfl
  unfold startLoop
  simp only [Messenger.send]
  rw [harr, hrec]
  dsimp only
  rw [hreply]
  dsimp only
  have hrun := runIpc_run N hp (arwenReply.mapProg (fun r => (contractResponse N.ord r.1, r.2)) p)
    ({ node := { nonce := node.nonce + 1 }, arwen := { nonce := node.nonce + 1 }, world := world, remaining := N.maxLoopTime,
       received := 0 } : Sys W) (asks_map _ _ _ hask) rfl (by
      intro n hn
      rw [questions_map] at hn
      dsimp only at hn ⊢
      rw [waiting_eq]
      have := waiting_mono N (show n + 1 ≤ questions N.hook p world + 1 by omega)
      omega)
  rw [questions_map, direct_map] at hrun
  obtain ⟨t, e1, e2, e3, e4, e5⟩ := hrun
  rw [e1]
  dsimp only at e2 e4 e5 ⊢
  rw [Nat.zero_add] at e4
  rw [waiting_eq] at e5
  have harr2 : ∀ n, ({ contractResponse N.ord (runDirect N.hook p world).1.1 with nonce := n } : Msg).arrived =
      { contractResponse N.ord (runDirect N.hook p world).1.1 with nonce := n } := by
    intro n
    rw [Msg.arrived, if_pos]
    rfl
  simp only [harr2]
  rw [waiting_succ] at ht
  rw [nodeReceive]
  dsimp only
  rw [e4, e5, if_neg (by rintro ⟨_, h⟩; omega)]
  have hrec2 : t.node.receive ({ contractResponse N.ord (runDirect N.hook p world).1.1 with nonce := t.arwen.nonce + 1 } : Msg) =
      some { nonce := t.arwen.nonce + 1 } := by
    rw [Messenger.receive, if_neg]
    simp only [e3]
    exact fun h => h rfl
  rw [hrec2]
  dsimp only
  rw [if_neg (by omega)]
  dsimp only
  rw [if_neg (fun h => by cases h), if_pos (by rfl)]
  exact ⟨_, _, rfl, e2, rfl, rfl⟩

/-- what the driver makes of the response -/
theorem driverReads_agrees (N : Node W) (hf : Fair N.ord) (r : Option RawOutput × Option Bytes) (n : UInt32)
    (hk : ∀ o, r.1 = some o → KeysAgree o) (he : ∀ text, r.2 = some text → text ≠ [] ∧ N.errorf text = text) :
    Agrees (driverReads N (.ok { contractResponse N.ord r with nonce := n })) r := by
  obtain ⟨o, e⟩ := r
  cases e with
  | some text =>
    obtain ⟨h1, h2⟩ := he text rfl
    show driverReads N _ = _
    have e : getError N.errorf ({ contractResponse N.ord (o, some text) with nonce := n } : Msg).error = some text := by
      show (if text.length = 0 then none else some (N.errorf text)) = _
      rw [if_neg (fun h => h1 (List.length_eq_zero_iff.mp h)), h2]
    rw [driverReads, e]
    rfl
  | none =>
    cases o with
    | none => rfl
    | some o => exact ⟨_, rfl, c37_output N.ord hf o (hk o rfl)⟩

/-- **C38 (partial).** Calling a contract through the Arwen process gives the output or the error that the same virtual machine gives
inside the node, with the same questions asked of the hook, so with the same state of the node afterwards; and both messengers are
ready for the next request. The virtual machine must ask only supported functions of the hook, and the node must not run out of
time. -/
theorem c38_call_partial {H : Type} (N : Node W) (vm : Machine H) (i : CallInput) (s : Sys W) (h : H) (hp : PlainErrors N)
    (hf : Fair N.ord) (hs : s.node.nonce = s.arwen.nonce) (ha : Asks Supported (vm.call i h))
    (ht : (waiting N (questions N.hook (vm.call i h) s.world + 1) : Int) ≤ N.maxLoopTime)
    (hk : ∀ o, (runDirect N.hook (vm.call i h) s.world).1.1.1 = some o → KeysAgree o)
    (he : ∀ text, (runDirect N.hook (vm.call i h) s.world).1.1.2 = some text → text ≠ [] ∧ N.errorf text = text) :
    ∃ t : Sys W, (driverCall N vm i s h).2 = (t, (runDirect N.hook (vm.call i h) s.world).1.2) ∧
      t.world = (runDirect N.hook (vm.call i h) s.world).2 ∧ t.node = {} ∧ t.arwen = {} ∧
      Agrees (driverCall N vm i s h).1 (runDirect N.hook (vm.call i h) s.world).1.1 := by
  obtain ⟨n, t, e, e2, e3, e4⟩ := startLoop_run N vm hp { kind := .contractCallRequest, body := .callRequest i } s h hs rfl
    (vm.call i h) (fun _ => rfl) ha ht
  refine ⟨t, ?_, e2, e3, e4, ?_⟩
  · show (startLoop _ _ _ _ _).2 = _
    rw [e]
  · show Agrees (driverReads N (startLoop _ _ _ _ _).1) _
    rw [e]
    exact driverReads_agrees N hf _ n hk he

/-- **C38 (partial).** The same for deployments. -/
theorem c38_create_partial {H : Type} (N : Node W) (vm : Machine H) (i : CreateInput) (s : Sys W) (h : H) (hp : PlainErrors N)
    (hf : Fair N.ord) (hs : s.node.nonce = s.arwen.nonce) (ha : Asks Supported (vm.create i h))
    (ht : (waiting N (questions N.hook (vm.create i h) s.world + 1) : Int) ≤ N.maxLoopTime)
    (hk : ∀ o, (runDirect N.hook (vm.create i h) s.world).1.1.1 = some o → KeysAgree o)
    (he : ∀ text, (runDirect N.hook (vm.create i h) s.world).1.1.2 = some text → text ≠ [] ∧ N.errorf text = text) :
    ∃ t : Sys W, (driverCreate N vm i s h).2 = (t, (runDirect N.hook (vm.create i h) s.world).1.2) ∧
      t.world = (runDirect N.hook (vm.create i h) s.world).2 ∧ t.node = {} ∧ t.arwen = {} ∧
      Agrees (driverCreate N vm i s h).1 (runDirect N.hook (vm.create i h) s.world).1.1 := by
  obtain ⟨n, t, e, e2, e3, e4⟩ := startLoop_run N vm hp { kind := .contractDeployRequest, body := .deployRequest i } s h hs rfl
    (vm.create i h) (fun _ => rfl) ha ht
  refine ⟨t, ?_, e2, e3, e4, ?_⟩
  · show (startLoop _ _ _ _ _).2 = _
    rw [e]
  · show Agrees (driverReads N (startLoop _ _ _ _ _).1) _
    rw [e]
    exact driverReads_agrees N hf _ n hk he

/-- **C38 is false in general.** Whatever the node and its hook, a question about a built-in function, a snapshot, a revert or the
clearing of compiled code ends the node's loop with an error: the node does not recognise it as a hook call, although it has a
replier for it. -/
theorem c38_neg (N : Node W) (f : HookFn) (hf : Unrecognised f) (a : Args f) (s : Sys W) (hs : s.node.nonce = s.arwen.nonce)
    (ht : (N.clock s.received : Int) ≤ s.remaining) :
    (askNode N f a s).1 = .failed .badMessage ∧ ∃ kind, f.requestKind = some kind ∧ nodeReplier kind = some f := by
  have table : ∃ kind, f.requestKind = some kind ∧ nodeReplier kind = some f ∧ creates kind = .request f ∧ isHookCall kind = false ∧
      endsLoop kind = false := by
    rcases hf with rfl | rfl | rfl | rfl <;> exact ⟨_, rfl, rfl, rfl, rfl, rfl⟩
  obtain ⟨kind, e1, e2, e3, e4, e5⟩ := table
  refine ⟨?_, kind, e1, e2⟩
  obtain ⟨node, arwen, world, remaining, received⟩ := s
  dsimp only at hs ht ⊢
  have ha : ({ nonce := arwen.nonce + 1, kind := kind, body := .request f a } : Msg).arrived =
      { nonce := arwen.nonce + 1, kind := kind, body := .request f a } := by
    rw [Msg.arrived, if_pos]
    exact e3
  unfold askNode
  rw [e1]
  simp only [Messenger.send, ha]
  have hrec : node.receive ({ nonce := arwen.nonce + 1, kind := kind, body := .request f a } : Msg) =
      some { nonce := node.nonce + 1 } := by
    rw [Messenger.receive, if_neg]
    · simp only [hs]
    · simp only [hs]
      exact fun h => h rfl
  rw [nodeReceive]
  dsimp only
  rw [if_neg (by rintro ⟨_, h⟩; omega), hrec]
  dsimp only
  rw [if_neg (by omega)]
  dsimp only
  rw [e4, e5, if_neg (by decide), if_neg (by decide)]

/-- So every run of the virtual machine that takes a snapshot of the node's state first, as every nested call does, fails with a
critical error over the pipe, whatever it does afterwards. -/
theorem c38_snapshot_neg {H : Type} (N : Node W) (vm : Machine H) (i : CallInput) (s : Sys W) (h : H)
    (k : Except Bytes Int → IProg ((Option RawOutput × Option Bytes) × H)) (hvm : vm.call i h = .ask .getSnapshot () k)
    (hs : s.node.nonce = s.arwen.nonce) (ht : (N.clock 0 : Int) ≤ N.maxLoopTime) :
    (driverCall N vm i s h).1 = .critical .badMessage := by
  obtain ⟨node, arwen, world, remaining, received⟩ := s
  dsimp only at hs
  have hrec : arwen.receive ({ nonce := node.nonce + 1, kind := .contractCallRequest, body := .callRequest i } : Msg) =
      some { nonce := node.nonce + 1 } := by
    rw [Messenger.receive, if_neg]
    simp only [hs]
    exact fun h => h rfl
  show driverReads N (startLoop _ _ _ _ _).1 = _
  unfold startLoop
  simp only [Messenger.send]
  have harr : ∀ n, ({ nonce := n, kind := .contractCallRequest, body := .callRequest i } : Msg).arrived =
      { nonce := n, kind := .contractCallRequest, body := .callRequest i } := by
    intro n
    rw [Msg.arrived, if_pos]
    rfl
  rw [harr, hrec]
  dsimp only
  have hr : ∀ n, arwenReply N.ord vm { nonce := n, kind := .contractCallRequest, body := .callRequest i } h =
      some (arwenReply.mapProg (fun r => (contractResponse N.ord r.1, r.2)) (vm.call i h)) := fun _ => rfl
  rw [hr, hvm]
  dsimp only [arwenReply.mapProg]
  rw [runIpc]
  have hq := (c38_neg N .getSnapshot (.inr (.inr (.inl rfl))) ()
    ({ node := { nonce := node.nonce + 1 }, arwen := { nonce := node.nonce + 1 }, world := world, remaining := N.maxLoopTime,
       received := 0 } : Sys W) rfl ht).1
  generalize askNode N .getSnapshot () _ = q at hq ⊢
  obtain ⟨x, t⟩ := q
  dsimp only at hq
  subst hq
  rfl

/-- **A change of the gas schedule never reaches the virtual machine over the pipe.** The receiver has no type for this request, so
the Arwen process panics on it, and the node finds the process gone. -/
theorem c38_gas_neg {H : Type} (N : Node W) (vm : Machine H) (g : GasTable) (s : Sys W) (h : H)
    (hs : s.node.nonce = s.arwen.nonce) :
    (driverGasChange N vm g s h).1 = some .arwenGone ∧ (driverGasChange N vm g s h).2.2 = h := by
  obtain ⟨node, arwen, world, remaining, received⟩ := s
  dsimp only at hs
  have hrec : arwen.receive ({ nonce := node.nonce + 1, kind := .gasScheduleChangeRequest, body := .undefined } : Msg) =
      some { nonce := node.nonce + 1 } := by
    rw [Messenger.receive, if_neg]
    simp only [hs]
    exact fun h => h rfl
  have harr : ∀ n, ({ nonce := n, kind := .gasScheduleChangeRequest, body := .gasRequest g } : Msg).arrived =
      { nonce := n, kind := .gasScheduleChangeRequest, body := .undefined } := by
    intro n
    rw [Msg.arrived, if_neg]
    · show ¬ GoType.undefined = GoType.gasRequest
      decide
  have e : startLoop N vm { kind := .gasScheduleChangeRequest, body := .gasRequest g } { node, arwen, world, remaining, received } h =
      (.error .arwenGone, { node := {}, arwen := { nonce := node.nonce + 1 }, world, remaining := N.maxLoopTime, received := 0 }, h) := by
    unfold startLoop
    simp only [Messenger.send]
    rw [harr, hrec]
    rfl
  unfold driverGasChange
  rw [e]
  exact ⟨rfl, rfl⟩

/-- **An error without a text is taken for success.** -/
theorem c38_empty_neg (N : Node W) (o : Option RawOutput) (n : UInt32) :
    driverReads N (.ok { contractResponse N.ord (o, some []) with nonce := n }) = .output (SerOutput.new N.ord o).convert := rfl

/-! ### A concrete node -/

/-- a node whose state is a counter that every question increases; it knows one account and fails on the other addresses -/
def toyNode : Node Nat :=
  { hook := fun f a w =>
      match f, a with
      | .getStorageData, (k, i) => ((if k = [1] then i ++ [7] else [], if k = [1] then none else some [0x6e, 0x6f]), w + 1)
      | .currentNonce, _ => ((UInt64.ofNat w, none), w + 1)
      | f, _ => ((zero f, none), w + 1)
    ord := reversed
    errorf := id
    maxLoopTime := 100
    clock := fun n => n }

theorem toyNode_plain : PlainErrors toyNode := by
  intro f a w text h
  refine ⟨?_, rfl⟩
  cases f
  case getStorageData =>
    obtain ⟨k, i⟩ := a
    have h : (if k = [1] then none else some [0x6e, 0x6f]) = some text := h
    split at h
    · cases h
    · cases h
      decide
  all_goals cases h

/-- a machine that asks for the nonce and for two values of storage and returns what it got -/
def toyMachine : Machine Nat :=
  { create := fun _ h => .ret ((none, some [0x78]), h)
    call := fun i h =>
      .ask .currentNonce () fun n =>
      .ask .getStorageData ([1], i.function) fun x =>
      .ask .getStorageData ([2], i.function) fun y =>
      .ret ((some (rawOutput { richOutput with
        gasRemaining := match n with | .ok n => n | .error _ => 0
        returnData := [match x with | .ok b => b | .error e => e, match y with | .ok b => b | .error e => e] }), none), h + 1)
    gasChange := fun _ h => h
    version := [1] }

/-- the conditions of `c38_call_partial` are met, and the output comes back with what the hook answered -/
example : ∃ (t : Sys Nat) (o : RawOutput), driverCall toyNode toyMachine { vm := {}, recipient := [1], function := [5] } { world := 40 } 0 =
    (.output o, t, 1) ∧ t.world = 43 ∧ o.gasRemaining = 40 ∧ o.returnData = [[5, 7], [0x6e, 0x6f]] ∧
    (o.accounts.get? [2]).isSome := by
  have hf : Asks Supported (toyMachine.call { vm := {}, recipient := [1], function := [5] } 0) := by
    have h1 : Supported .currentNonce := by unfold Supported Unrecognised; decide
    have h2 : Supported .getStorageData := by unfold Supported Unrecognised; decide
    exact ⟨h1, fun _ => ⟨h2, fun _ => ⟨h2, fun _ => trivial⟩⟩⟩
  obtain ⟨t, e, e1, _, _, e2⟩ := c38_call_partial toyNode toyMachine { vm := {}, recipient := [1], function := [5] } { world := 40 } 0
    toyNode_plain reversed_fair rfl hf (by decide +kernel)
    (by
      intro o ho
      have : o = rawOutput _ := (Option.some.inj ho).symm
      rw [this]
      exact rawOutput_keysAgree _)
    (by intro text h; cases h)
  obtain ⟨o', e3, e4⟩ := e2
  have e4 : SameOutput o' (rawOutput { richOutput with gasRemaining := 40, returnData := [[5, 7], [0x6e, 0x6f]] }) := e4
  refine ⟨t, o', Prod.ext e3 e, e1, e4.gasRemaining, e4.returnData, ?_⟩
  have h := e4.accounts [2]
  have hs : ((rawOutput { richOutput with gasRemaining := 40, returnData := [[5, 7], [0x6e, 0x6f]] }).accounts.get? [2]).isSome = true := by
    decide +kernel
  generalize (rawOutput { richOutput with gasRemaining := 40, returnData := [[5, 7], [0x6e, 0x6f]] }).accounts.get? [2] = y at h hs
  generalize o'.accounts.get? [2] = x at h ⊢
  cases x <;> cases y <;> first | rfl | exact False.elim h | (cases hs; done)

end Arwen.Props
