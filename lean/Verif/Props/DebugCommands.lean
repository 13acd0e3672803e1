import Verif.Props.DebugCli
/-
C84: the commands of the debugger, as programs.
-/
namespace Arwen.Props
open Arwen.Mock Arwen.Debug Arwen.Spec

/-- **C84.** The commands have the names that the specification lists, and nothing else is a command. -/
theorem c84_names (name : String) (c : Command) : commandNamed name = some c ↔ name = nameOfCommand c := by
  constructor
  · intro h
    unfold commandNamed at h
    split at h <;> cases h <;> rfl
  · rintro rfl
    cases c <;> rfl

section
variable {A : Type} {E : Env MockWorld A} {L : Lib} {n : Nat} {boot : MockWorld → St MockWorld A} {readCode : Bytes → Option Bytes}
variable {P : Bytes → Option UInt64}

/-- **C84.** A command whose flags are in order asks for something, and for one thing only. -/
theorem c84_asks {c : Command} {l : List GivenFlag} (h : Acceptable P c l) : ∃ t, AsksFor P l c t ∧ ∀ t', AsksFor P l c t' → t' = t := by
  obtain ⟨a, ha⟩ := parseCommand_some.2 h
  exact ⟨_, parse_asks ha, fun t' ht => c84_one ht (parse_asks ha)⟩

theorem task_of_asks {c : Command} {l : List GivenFlag} (h : Acceptable P c l) {t : Task} (ht : AsksFor P l c t) :
    ∃ a, parseCommand P c l = some a ∧ a.task c = t := by
  obtain ⟨a, ha⟩ := parseCommand_some.2 h
  exact ⟨a, ha, c84_one (parse_asks ha) ht⟩

/-- **C84.** A command whose flags are in order carries out exactly the request that they describe, with the files that are there, and ends
with 0 if the request is answered and with 1 if there is an error; the request is carried out as it would be for the server. -/
theorem c84_request {c : Command} {l : List GivenFlag} (h : Acceptable P c l) {r : Req} (hr : AsksFor P l c (.request r))
    (stop : Option Stop) (d : Disk) {res : Result} {d' : Disk} (hh : handle E L n boot readCode r stop d = some (res, d')) :
    ∃ e, debugMain E L n boot readCode P (nameOfCommand c) l stop d = some (e, d') ∧ EndsWith res e := by
  obtain ⟨a, h1, h2⟩ := task_of_asks h hr
  refine ⟨endingOf res, ?_, ?_⟩
  · simp only [debugMain, (c84_names _ c).2 rfl, h1, h2, hh, Option.map_some]
  · cases res <;> constructor

/-- **C84.** The command `server` goes on as a server at the address given, or at port 9091, and leaves the files alone. -/
theorem c84_server {l : List GivenFlag} (h : Acceptable P .server l) {address : Bytes} (hr : AsksFor P l .server (.serve address))
    (stop : Option Stop) (d : Disk) : debugMain E L n boot readCode P "server" l stop d = some (.serves address, d) := by
  obtain ⟨a, h1, h2⟩ := task_of_asks h hr
  have h0 : commandNamed "server" = some .server := rfl
  simp only [debugMain, h0, h1, h2]

/-- **C84.** A command with a flag that it does not have, with a text where a number is due or without a flag that must be there does
nothing to the files and ends with 1. -/
theorem c84_refused {c : Command} {l : List GivenFlag} (h : ¬ Acceptable P c l) (stop : Option Stop) (d : Disk) :
    debugMain E L n boot readCode P (nameOfCommand c) l stop d = some (.exit 1, d) := by
  have : parseCommand P c l = none := by
    cases hp : parseCommand P c l with
    | none => rfl
    | some a => exact absurd (parseCommand_some.1 ⟨a, hp⟩) h
  simp only [debugMain, (c84_names _ c).2 rfl, this]

/-- **C84.** What is not a command does nothing to the files. -/
theorem c84_unknown {name : String} (h : ∀ c, name ≠ nameOfCommand c) (l : List GivenFlag) (stop : Option Stop) (d : Disk) :
    debugMain E L n boot readCode P name l stop d = some (.library, d) := by
  have : commandNamed name = none := by
    cases hc : commandNamed name with
    | none => rfl
    | some c => exact absurd ((c84_names _ _).1 hc) (h c)
  simp only [debugMain, this]

/-- **C84.** The program ends with 0 exactly if it was a command whose flags are in order and the request that they describe was
answered. -/
theorem c84_success {name : String} {l : List GivenFlag} {stop : Option Stop} {d d' : Disk} :
    debugMain E L n boot readCode P name l stop d = some (.exit 0, d') ↔
      ∃ c r reply, name = nameOfCommand c ∧ Acceptable P c l ∧ AsksFor P l c (.request r) ∧
        handle E L n boot readCode r stop d = some (.done reply, d') := by
  constructor
  · intro h
    unfold debugMain at h
    split at h
    · cases h
    rename_i c hc
    split at h
    · cases h
    rename_i a ha
    have hq := parse_asks ha
    split at h
    · cases h
    rename_i r hr
    rw [hr] at hq
    cases hh : handle E L n boot readCode r stop d with
    | none => rw [hh] at h; cases h
    | some x =>
      rw [hh] at h
      obtain ⟨res, d1⟩ := x
      simp only [Option.map_some, Option.some.injEq, Prod.mk.injEq] at h
      obtain ⟨h1, rfl⟩ := h
      cases res <;> simp only [endingOf, ProgramEnd.exit.injEq, reduceCtorEq, Nat.one_ne_zero] at h1
      exact ⟨c, r, _, (c84_names _ _).1 hc, parseCommand_some.1 ⟨a, ha⟩, hq, hh⟩
  · rintro ⟨c, r, reply, rfl, h1, h2, h3⟩
    obtain ⟨e, h4, h5⟩ := c84_request h1 h2 stop d h3
    cases h5
    exact h4

theorem lastOf_filter (name : String) (l : List GivenFlag) : lastOf name (l.filter fun x => x.1 = name) = lastOf name l := by
  induction l with
  | nil => rfl
  | cons x l ih =>
    by_cases h : x.1 = name
    · rw [List.filter_cons_of_pos (by simpa using h)]; simp only [lastOf, ih]
    · rw [List.filter_cons_of_neg (by simpa using h)]; simp only [lastOf, ih, if_neg h, Option.or_none]

theorem asks_congr {c : Command} {l l' : List GivenFlag} (h : ∀ name, (l.filter fun x => x.1 = name) = l'.filter fun x => x.1 = name) {t : Task}
    (ht : AsksFor P l c t) : AsksFor P l' c t := by
  have hl : ∀ name, lastOf name l = lastOf name l' := fun name => by rw [← lastOf_filter name l, h name, lastOf_filter]
  have tx : ∀ {name d v}, FlagText l name d v → FlagText l' name d v := fun {name d v} k => by
    rw [flagText_iff] at k ⊢; rw [← hl]; exact k
  have nu : ∀ {name k}, FlagNumber P l name k → FlagNumber P l' name k := fun {name k} q => by
    rw [flagNumber_iff] at q ⊢; rw [← hl]; exact q
  have co : ∀ {k}, SaysCommon P l k → SaysCommon P l' k := fun k => ⟨tx k.1, tx k.2, nu k.3, nu k.4, by rw [k.5, h]⟩
  have cd : ∀ {k}, SaysCode l k → SaysCode l' k := fun k => ⟨tx k.1, tx k.2, tx k.3⟩
  have ba : ∀ {r}, SaysBase l r → SaysBase l' r := fun k => ⟨tx k.1, tx k.2, tx k.3⟩
  cases ht with
  | server a => exact .server (tx a)
  | deploy b a k e => exact .deploy (ba b) a (co k) (cd e)
  | upgrade b a k e x => exact .upgrade (ba b) a (co k) (cd e) (tx x)
  | run b a k x y => exact .run (ba b) a (co k) (tx x) (tx y)
  | query b a k x y => exact .query (ba b) a (co k) (tx x) (tx y)
  | createAccount b a x y z => exact .createAccount (ba b) a (tx x) (tx y) (nu z)

theorem mem_congr {l l' : List GivenFlag} (h : ∀ name, (l.filter fun x => x.1 = name) = l'.filter fun x => x.1 = name) {x : GivenFlag} :
    x ∈ l → x ∈ l' := by
  intro hx
  have : x ∈ l.filter fun y => y.1 = x.1 := List.mem_filter.2 ⟨hx, by simp⟩
  rw [h] at this
  exact (List.mem_filter.1 this).1

theorem acceptable_congr {c : Command} {l l' : List GivenFlag} (h : ∀ name, (l.filter fun x => x.1 = name) = l'.filter fun x => x.1 = name)
    (ha : Acceptable P c l) : Acceptable P c l' :=
  ⟨fun name v hm => ha.known name v (mem_congr (fun m => (h m).symm) hm), fun name v hm => ha.number name v (mem_congr (fun m => (h m).symm) hm),
   fun name hn => by obtain ⟨v, hv⟩ := ha.complete name hn; exact ⟨v, mem_congr h hv⟩⟩

/-- **C84.** In which order different flags are given does not matter. -/
theorem c84_order {l l' : List GivenFlag} (h : ∀ name, (l.filter fun x => x.1 = name) = l'.filter fun x => x.1 = name) (name : String)
    (stop : Option Stop) (d : Disk) :
    debugMain E L n boot readCode P name l stop d = debugMain E L n boot readCode P name l' stop d := by
  unfold debugMain
  split
  · rfl
  rename_i c hc
  by_cases ha : Acceptable P c l
  · obtain ⟨a, h1⟩ := parseCommand_some.2 ha
    obtain ⟨a', h2, h3⟩ := task_of_asks (acceptable_congr h ha) (asks_congr h (parse_asks h1))
    simp only [h1, h2, h3]
  · have ha' : ¬ Acceptable P c l' := fun k => ha (acceptable_congr (fun m => (h m).symm) k)
    have e : ∀ {l}, ¬ Acceptable P c l → parseCommand P c l = none := fun {l} k => by
      cases hp : parseCommand P c l with
      | none => rfl
      | some a => exact absurd (parseCommand_some.1 ⟨a, hp⟩) k
    simp only [e ha, e ha']

/-- **C84.** A command for a contract without a limit of gas does nothing to the files and ends with 1, although the limit need not be
given. -/
theorem c84_no_gas {c : Command} (hc : c ≠ .server ∧ c ≠ .createAccount) {l : List GivenFlag} (hl : ¬ IsGiven l "gas-limit")
    (stop : Option Stop) (d : Disk) : debugMain E L n boot readCode P (nameOfCommand c) l stop d = some (.exit 1, d) := by
  by_cases ha : Acceptable P c l
  · obtain ⟨t, ht, _⟩ := c84_asks ha
    have gas : ∀ {k}, SaysCommon P l k → digestCommon k = none := fun {k} hk => by
      have h0 : k.gasLimit = 0 := by
        rcases hk.gasLimit with ⟨v, hv, _⟩ | ⟨_, h⟩
        · exact absurd (lastGiven_given hv) hl
        · exact h
      unfold digestCommon
      simp only [h0, if_true]
      split
      · rfl
      · split <;> rfl
    have fin : ∀ {r : Req}, AsksFor P l c (.request r) → digest readCode r.act = none →
        debugMain E L n boot readCode P (nameOfCommand c) l stop d = some (.exit 1, d) := by
      intro r hr hd
      have hh : handle E L n boot readCode r stop d = some (.refused, d) := by unfold handle; rw [hd]
      obtain ⟨e, h1, h2⟩ := c84_request (E := E) (L := L) (n := n) (boot := boot) (readCode := readCode) ha hr stop d hh
      cases h2
      exact h1
    have ht' := ht
    cases ht with
    | server _ => exact absurd rfl hc.1
    | createAccount _ _ _ _ _ => exact absurd rfl hc.2
    | deploy b a k e => exact fin ht' (by rw [a]; simp only [digest, gas k])
    | upgrade b a k e x => exact fin ht' (by rw [a]; simp only [digest, gas k])
    | run b a k x y => exact fin ht' (by rw [a]; simp only [digest, gas k])
    | query b a k x y => exact fin ht' (by rw [a]; simp only [digest, gas k])
  · exact c84_refused ha stop d

/-- **C84.** Commands one after the other leave the files as the requests that they ask for do, one after the other, and each ends as its
request does; what is proved about a history of requests to the debugger holds for commands. -/
theorem c84_session {s : List ((String × List GivenFlag × Option Stop) × Req)}
    (h : ∀ x ∈ s, ∃ c, x.1.1 = nameOfCommand c ∧ Acceptable P c x.1.2.1 ∧ AsksFor P x.1.2.1 c (.request x.2))
    (d : Disk) {res : List Result} {d' : Disk}
    (hh : history E L n boot readCode (s.map fun x => (x.2, x.1.2.2)) d = some (res, d')) :
    ∃ ends, commandsRun E L n boot readCode P (s.map (·.1)) d = some (ends, d') ∧ ends.length = res.length ∧
      ∀ (i : Nat) (r : Result) (e : ProgramEnd), res[i]? = some r → ends[i]? = some e → EndsWith r e := by
  induction s generalizing d res with
  | nil => cases hh; exact ⟨[], rfl, rfl, fun _ _ _ hr => (by simp at hr)⟩
  | cons x xs ih =>
    obtain ⟨⟨name, l, stop⟩, r⟩ := x
    obtain ⟨c, h1, h2, h3⟩ := h _ List.mem_cons_self
    simp only at h1 h2 h3
    subst h1
    simp only [List.map_cons, history] at hh
    split at hh
    · cases hh
    rename_i res1 d1 h5
    cases h6 : history E L n boot readCode (xs.map fun x => (x.2, x.1.2.2)) d1 with
    | none => rw [h6] at hh; cases hh
    | some z =>
      obtain ⟨l', d2⟩ := z
      rw [h6] at hh
      simp only [Option.map_some, Option.some.injEq, Prod.mk.injEq] at hh
      obtain ⟨rfl, rfl⟩ := hh
      obtain ⟨e, h7, h8⟩ := c84_request h2 h3 stop d h5
      obtain ⟨ends, h9, h10, h11⟩ := ih (fun x hx => h x (List.mem_cons_of_mem _ hx)) d1 h6
      refine ⟨e :: ends, by simp only [List.map_cons, commandsRun, h7, h9, Option.map_some], by simp [h10], fun i r' e' hr he => ?_⟩
      cases i with
      | zero => cases hr; cases he; exact h8
      | succ i => exact h11 i r' e' (by simpa using hr) (by simpa using he)

/-! ### Every request can be asked for -/

theorem lastOf_append (name : String) (l l' : List GivenFlag) : lastOf name (l ++ l') = (lastOf name l').or (lastOf name l) := by
  induction l with
  | nil => simp [lastOf]
  | cons x l ih => simp only [List.cons_append, lastOf, ih, Option.or_assoc]

/-- the flags for arguments -/
def argumentFlags (args : List Bytes) : List GivenFlag := args.map fun v => ("arguments", v)

theorem lastOf_arguments {name : String} (h : name ≠ "arguments") (args : List Bytes) : lastOf name (argumentFlags args) = none := by
  rw [lastOf_none]
  rintro ⟨v, hv⟩
  obtain ⟨w, _, hw⟩ := List.mem_map.1 hv
  exact h (congrArg Prod.fst hw).symm

theorem filter_arguments (args : List Bytes) : (argumentFlags args).filter (fun x => x.1 = "arguments") = argumentFlags args := by
  rw [List.filter_eq_self]
  intro x hx
  obtain ⟨w, _, rfl⟩ := List.mem_map.1 hx
  simp

theorem values_arguments (args : List Bytes) : (argumentFlags args).map (·.2) = args := by
  unfold argumentFlags
  rw [List.map_map]
  exact List.map_id args

/-- flags that are given once, after those for arguments -/
theorem acceptable_of {c : Command} {args : List Bytes} {l : List GivenFlag}
    (h1 : ∀ x ∈ l, (x.1 ∈ mustHave c ∨ x.1 ∈ mayHave c) ∧ (x.1 ∈ numbers → ∃ k, P x.2 = some k))
    (h2 : ∀ name ∈ mustHave c, name ∈ l.map (·.1)) (h3 : args = [] ∨ "arguments" ∈ mayHave c) : Acceptable P c (argumentFlags args ++ l) := by
  refine ⟨fun name v hm => ?_, fun name v hm hn => ?_, fun name hn => ?_⟩
  · rcases List.mem_append.1 hm with hm | hm
    · obtain ⟨w, hw, he⟩ := List.mem_map.1 hm
      cases he
      rcases h3 with rfl | h3
      · cases hw
      · exact .inr h3
    · exact (h1 _ hm).1
  · rcases List.mem_append.1 hm with hm | hm
    · obtain ⟨w, hw, he⟩ := List.mem_map.1 hm
      cases he
      exact absurd hn (by decide)
    · exact (h1 _ hm).2 hn
  · obtain ⟨⟨m, v⟩, hv, rfl⟩ := List.mem_map.1 (h2 name hn)
    exact ⟨v, List.mem_append_right _ hv⟩

/-- the request is a query that sends a value or sets a price for gas -/
def PaysForQuery (r : Req) : Prop := ∃ c contract function, r.act = .query c contract function ∧ (c.value ≠ [] ∨ c.gasPrice ≠ 0)

/-- **C84.** Every request can be asked for by a command, except queries that send a value or set a price for gas, if every number has a
text. -/
theorem c84_every_partial (hP : ∀ k, ∃ v, P v = some k) (r : Req) (hq : ¬ PaysForQuery r) :
    ∃ c l, Acceptable P c l ∧ AsksFor P l c (.request r) := by
  obtain ⟨database, world, outcome, act⟩ := r
  cases act with
  | createAccount address balance nonce =>
    obtain ⟨tn, hn⟩ := hP nonce
    refine ⟨.createAccount, argumentFlags [] ++ [("database", database), ("world", world), ("outcome", outcome), ("address", address),
      ("balance", balance), ("nonce", tn)], acceptable_of ?_ (by simp [mustHave]) (.inl rfl), ?_⟩
    · simp [mustHave, mayHave, numbers, hn]
    · refine .createAccount (address := address) (balance := balance) (nonce := nonce) ⟨?_, ?_, ?_⟩ rfl ?_ ?_ ?_ <;>
        simp [flagText_iff, flagNumber_iff, lastOf_append, lastOf, hn]
  | deploy c code =>
    obtain ⟨gp, hgp⟩ := hP c.gasPrice
    obtain ⟨gl, hgl⟩ := hP c.gasLimit
    refine ⟨.deploy, argumentFlags c.argumentsHex ++ [("database", database), ("world", world), ("outcome", outcome),
      ("impersonated", c.impersonatedHex), ("value", c.value), ("gas-price", gp), ("gas-limit", gl), ("code", code.hex),
      ("code-path", code.path), ("code-metadata", code.metadata)], acceptable_of ?_ (by simp [mustHave]) (.inr (by decide)), ?_⟩
    · simp [mustHave, mayHave, numbers, hgp, hgl]
    · refine .deploy (c := c) (code := code) ⟨?_, ?_, ?_⟩ rfl ⟨?_, ?_, ?_, ?_, ?_⟩ ⟨?_, ?_, ?_⟩ <;>
        simp [flagText_iff, flagNumber_iff, lastOf_append, lastOf, hgp, hgl, filter_arguments, values_arguments]
  | upgrade c code contract =>
    obtain ⟨gp, hgp⟩ := hP c.gasPrice
    obtain ⟨gl, hgl⟩ := hP c.gasLimit
    refine ⟨.upgrade, argumentFlags c.argumentsHex ++ [("database", database), ("world", world), ("outcome", outcome),
      ("impersonated", c.impersonatedHex), ("value", c.value), ("gas-price", gp), ("gas-limit", gl), ("code", code.hex),
      ("code-path", code.path), ("code-metadata", code.metadata), ("contract", contract)], acceptable_of ?_ (by simp [mustHave]) (.inr (by decide)), ?_⟩
    · simp [mustHave, mayHave, numbers, hgp, hgl]
    · refine .upgrade (c := c) (code := code) (contract := contract) ⟨?_, ?_, ?_⟩ rfl ⟨?_, ?_, ?_, ?_, ?_⟩ ⟨?_, ?_, ?_⟩ ?_ <;>
        simp [flagText_iff, flagNumber_iff, lastOf_append, lastOf, hgp, hgl, filter_arguments, values_arguments]
  | run c contract function =>
    obtain ⟨gp, hgp⟩ := hP c.gasPrice
    obtain ⟨gl, hgl⟩ := hP c.gasLimit
    refine ⟨.run, argumentFlags c.argumentsHex ++ [("database", database), ("world", world), ("outcome", outcome),
      ("impersonated", c.impersonatedHex), ("value", c.value), ("gas-price", gp), ("gas-limit", gl), ("contract", contract),
      ("function", function)], acceptable_of ?_ (by simp [mustHave]) (.inr (by decide)), ?_⟩
    · simp [mustHave, mayHave, numbers, hgp, hgl]
    · refine .run (c := c) (contract := contract) (function := function) ⟨?_, ?_, ?_⟩ rfl ⟨?_, ?_, ?_, ?_, ?_⟩ ?_ ?_ <;>
        simp [flagText_iff, flagNumber_iff, lastOf_append, lastOf, hgp, hgl, filter_arguments, values_arguments]
  | query c contract function =>
    obtain ⟨gl, hgl⟩ := hP c.gasLimit
    have hv : c.value = [] := Classical.byContradiction fun h => hq ⟨c, contract, function, rfl, .inl h⟩
    have hp : c.gasPrice = 0 := Classical.byContradiction fun h => hq ⟨c, contract, function, rfl, .inr h⟩
    refine ⟨.query, argumentFlags c.argumentsHex ++ [("database", database), ("world", world), ("outcome", outcome),
      ("impersonated", c.impersonatedHex), ("gas-limit", gl), ("contract", contract),
      ("function", function)], acceptable_of ?_ (by simp [mustHave]) (.inr (by decide)), ?_⟩
    · simp [mustHave, mayHave, numbers, hgl]
    · refine .query (c := c) (contract := contract) (function := function) ⟨?_, ?_, ?_⟩ rfl ⟨?_, ?_, ?_, ?_, ?_⟩ ?_ ?_ <;>
        simp [flagText_iff, flagNumber_iff, lastOf_append, lastOf, hv, hp, hgl, filter_arguments, values_arguments, lastOf_arguments]

/-- No command asks for a query that sends a value or sets a price for gas, which the server of the debugger takes: the command `query` has
no flags for them. -/
theorem c84_query_neg : ∃ r : Req, ∀ (P : Bytes → Option UInt64) (c : Command) (l : List GivenFlag), Acceptable P c l →
    ¬ AsksFor P l c (.request r) := by
  refine ⟨{ act := .query { impersonatedHex := [], value := [49] } [] [] }, fun P c l ha ht => ?_⟩
  cases ht with
  | query b a k x y =>
    cases a
    rcases k.value with h | ⟨_, h⟩
    · obtain ⟨v, hv⟩ := lastGiven_given h
      exact absurd (ha.known _ _ hv) (by decide)
    · cases h
  | deploy b a k e => cases a
  | upgrade b a k e x => cases a
  | run b a k x y => cases a
  | createAccount b a x y z => cases a

/-! ### Witnesses -/

/-- the flags `--outcome=x --impersonated=6161 --code=00 --gas-limit=1` -/
def shortDeploy : List GivenFlag := [("outcome", [120]), ("impersonated", [54, 49, 54, 49]), ("code", [48, 48]), ("gas-limit", [49])]

/-- reads the number 1 only -/
def readsOne : Bytes → Option UInt64 := fun v => if v = [49] then some 1 else none

theorem short_acceptable : Acceptable readsOne .deploy shortDeploy := by
  refine acceptable_of (args := []) ?_ (by decide) (.inl rfl)
  simp [shortDeploy, mustHave, mayHave, numbers, readsOne]

theorem short_asks : AsksFor readsOne shortDeploy .deploy (.request
    { outcome := [120], act := .deploy { impersonatedHex := [54, 49, 54, 49], gasLimit := 1 } { hex := [48, 48] } }) := by
  refine .deploy (c := { impersonatedHex := [54, 49, 54, 49], gasLimit := 1 }) (code := { hex := [48, 48] }) ⟨?_, ?_, ?_⟩ rfl
    ⟨?_, ?_, ?_, ?_, ?_⟩ ⟨?_, ?_, ?_⟩ <;> simp [flagText_iff, flagNumber_iff, lastOf, shortDeploy, readsOne]

/-- The program ends with 0 although the virtual machine gave an error: a contract is deployed in the name of an address of two bytes,
which comes to nothing. -/
theorem c84_failed_neg {A : Type} (E : Env MockWorld A) (L : Lib) (n : Nat) (boot : MockWorld → St MockWorld A) (readCode : Bytes → Option Bytes) :
    ∃ d', debugMain E L n boot readCode readsOne "deploy" shortDeploy none AMap.empty = some (.exit 0, d') ∧
      d'.get? (outcomeFile defaultRoot [120]) = some (.outcome (.output none)) := by
  let r : Req := { outcome := [120], act := .deploy { impersonatedHex := [54, 49, 54, 49], gasLimit := 1 } { hex := [48, 48] } }
  have hd : digest readCode r.act = some (.deploy { vm := { caller := [97, 97], gasPrice := 200000000000, gasProvided := 1 }, code := [0], metadata := [1, 0] }) := by
    rfl
  have hh : handle E L n boot readCode r none AMap.empty = some (.done (.output none),
      (storeWorld defaultRoot defaultWorld AMap.empty AMap.empty).insert (outcomeFile defaultRoot [120]) (.outcome (.output none))) := by
    unfold handle
    rw [hd]
    rfl
  obtain ⟨e, h1, h2⟩ := c84_request short_acceptable short_asks none AMap.empty hh
  cases h2
  exact ⟨_, h1, AMap.get?_insert_self _ _ _⟩

/-- the flags `--outcome= --address=61 --balance=1 --nonce=1` -/
def emptyOutcome : List GivenFlag := [("outcome", []), ("address", [54, 49]), ("balance", [49]), ("nonce", [49])]

/-- The flag `outcome` must be given, but may be empty: then the program ends with 0 and keeps no outcome. -/
theorem c84_outcome_neg {A : Type} (E : Env MockWorld A) (L : Lib) (n : Nat) (boot : MockWorld → St MockWorld A) (readCode : Bytes → Option Bytes) :
    IsGiven emptyOutcome "outcome" ∧ Acceptable readsOne .createAccount emptyOutcome ∧
    ∃ d', debugMain E L n boot readCode readsOne "create-account" emptyOutcome none AMap.empty = some (.exit 0, d') ∧
      ∀ p reply, d'.get? p ≠ some (.outcome reply) := by
  have ha : Acceptable readsOne .createAccount emptyOutcome := by
    refine acceptable_of (args := []) ?_ (by decide) (.inl rfl)
    simp [mustHave, mayHave, numbers, readsOne]
  have hs : AsksFor readsOne emptyOutcome .createAccount (.request { act := .createAccount [54, 49] [49] 1 }) := by
    refine .createAccount (address := [54, 49]) (balance := [49]) (nonce := 1) ⟨?_, ?_, ?_⟩ rfl ?_ ?_ ?_ <;>
      simp [flagText_iff, flagNumber_iff, lastOf, emptyOutcome, readsOne]
  refine ⟨⟨_, List.mem_cons_self⟩, ha, ?_⟩
  let r : Req := { act := .createAccount [54, 49] [49] 1 }
  have hd : digest readCode r.act = some (.account [97] 1 1) := by rfl
  have hh : handle E L n boot readCode r none AMap.empty = some (.done (.account [97] { exists_ := false, nonce := 1, balance := 1 }),
      storeWorld defaultRoot defaultWorld (AMap.empty.insert [97] { exists_ := false, nonce := 1, balance := 1 }) AMap.empty) := by
    unfold handle
    rw [hd]
    rfl
  obtain ⟨e, h1, h2⟩ := c84_request ha hs none AMap.empty hh
  cases h2
  refine ⟨_, h1, fun p reply => ?_⟩
  unfold storeWorld
  by_cases hp : p = worldFile defaultRoot defaultWorld
  · rw [hp, AMap.get?_insert_self]; simp
  · rw [AMap.get?_insert_ne _ _ (by exact fun h => hp h.symm)]; simp [AMap.get?_empty]

end

/-! ### Examples -/

example : Acceptable readsOne .deploy shortDeploy := short_acceptable
/-- a flag of another command, a missing one, and a text that is no number -/
example : ¬ Acceptable readsOne .query (("value", []) :: shortDeploy) ∧ ¬ Acceptable readsOne .run shortDeploy ∧
    ¬ Acceptable readsOne .deploy (("gas-price", [120]) :: shortDeploy) :=
  ⟨fun h => absurd (h.known "value" [] (by decide)) (by decide),
   fun h => by obtain ⟨v, hv⟩ := h.complete "contract" (by decide); simp [shortDeploy] at hv,
   fun h => by obtain ⟨k, hk⟩ := h.number "gas-price" [120] (by decide) (by decide); cases hk⟩
/-- the last value given counts -/
example : FlagText [("world", [1]), ("outcome", [2]), ("world", [3])] "world" [] [3] := .inl ⟨[("world", [1]), ("outcome", [2])], [], rfl, isGiven_nil⟩
/-- the hypothesis of `c84_order` -/
example : ∀ name, ([("world", [1]), ("outcome", [2])] : List GivenFlag).filter (fun x => x.1 = name) =
    ([("outcome", [2]), ("world", [1])] : List GivenFlag).filter (fun x => x.1 = name) := by
  intro name
  by_cases h : "world" = name
  · subst h; decide
  · simp [List.filter, h]
/-- the hypothesis of `c84_no_gas` -/
example : ¬ IsGiven (shortDeploy.take 3) "gas-limit" := by rintro ⟨v, h⟩; simp [shortDeploy] at h
/-- the hypothesis of `c84_server` -/
example : Acceptable readsOne .server [] ∧ AsksFor readsOne [] .server (.serve defaultServer) :=
  ⟨acceptable_of (args := []) (l := []) (by simp) (by decide) (.inl rfl), .server (.inr ⟨isGiven_nil, rfl⟩)⟩
/-- the hypothesis of `c84_unknown` -/
example : ∀ c, "Deploy" ≠ nameOfCommand c := by intro c; cases c <;> decide
/-- the hypothesis of `c84_every_partial` -/
example : ¬ PaysForQuery { act := .query { impersonatedHex := [] } [] [] } := by
  rintro ⟨c, x, y, h, h1 | h1⟩ <;> cases h <;> exact h1 rfl
example : ∃ P : Bytes → Option UInt64, ∀ k, ∃ v, P v = some k :=
  ⟨fun v => some (UInt64.ofNat v.length), fun k => ⟨List.replicate k.toNat 0, by simp⟩⟩

end Arwen.Props
