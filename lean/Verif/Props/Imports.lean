import Verif.Spec.Imports
import Verif.Host.Inv
import Verif.Props.Independent
import Verif.Props.Deploy
import Verif.Fixture
/-
C81: the API that contracts see. Every function of the API is imported under its own name and with its own types, nothing else
can be imported, and no contract has groups of asynchronous calls.
-/
namespace Arwen.Props
open Arwen.Linking Arwen.Spec

/-! ### Collecting imports -/

theorem ok_bind {ε α β : Type} (a : α) (f : α → Except ε β) : ((Except.ok a : Except ε α) >>= f) = f a := rfl
theorem err_bind {ε α β : Type} (e : ε) (f : α → Except ε β) : ((Except.error e : Except ε α) >>= f) = .error e := rfl

theorem wasmType_ok {e : ImportError} {k : GoKind} : (∃ t, wasmType e k = .ok t) ↔ (k = .int32 ∨ k = .int64) := by
  cases k <;> simp [wasmType]

theorem wasmInputs_ok {l : List GoKind} : (∃ ts, wasmInputsOf l = .ok ts) ↔ ∀ k ∈ l, k = .int32 ∨ k = .int64 := by
  induction l with
  | nil => simp [wasmInputsOf]
  | cons k l ih =>
    rw [List.forall_mem_cons, ← ih, ← wasmType_ok (e := .badInput), wasmInputsOf]
    cases h1 : wasmType .badInput k with
    | error e => simp
    | ok t =>
      cases h2 : wasmInputsOf l with
      | error e => simp [Except.map]
      | ok ts => simp [Except.map]

theorem wasmOutputs_ok {l : List GoKind} : (∃ ts, wasmOutputsOf l = .ok ts) ↔ l.length ≤ 1 ∧ ∀ k ∈ l, k = .int32 ∨ k = .int64 := by
  match l with
  | [] => simp [wasmOutputsOf]
  | [k] =>
    simp only [List.length_cons, List.length_nil, Nat.zero_add, Nat.le_refl, true_and, List.mem_singleton, forall_eq]
    rw [← wasmType_ok (e := .badOutput), wasmOutputsOf]
    cases h1 : wasmType .badOutput k with
    | error e => simp [Except.map]
    | ok t => simp [Except.map]
  | _ :: _ :: _ => simp [wasmOutputsOf]

/-- the types of the parameters of an API function -/
theorem wasmInputs_map (l : List WasmType) : wasmInputsOf (l.map WasmType.kind) = .ok l := by
  induction l with
  | nil => rfl
  | cons t l ih =>
    rw [List.map_cons, wasmInputsOf, ih]
    cases t <;> rfl

theorem wasmOutputs_map (o : Option WasmType) : wasmOutputsOf (o.toList.map WasmType.kind) = .ok o.toList := by
  cases o with
  | none => rfl
  | some t => cases t <;> rfl

/-- a refused function, or the new table -/
theorem append_run (t : Imports) (name : String) (f : GoValue) {u : Imports} (h : t.append name f = .ok u) :
    ∃ ks ins outs, f.isFunc = true ∧ f.inputs = .unsafePointer :: ks ∧ wasmInputsOf ks = .ok ins ∧ wasmOutputsOf f.outputs = .ok outs ∧
      u = t.put name ⟨f.run, ins, outs, t.currentNamespace⟩ := by
  unfold Imports.append at h
  split at h
  · simp at h
  · rename_i hf
    cases hi : f.inputs with
    | nil => rw [hi] at h; simp at h
    | cons k ks =>
      rw [hi] at h
      dsimp only at h
      split at h
      · simp at h
      · rename_i hk
        cases h1 : wasmInputsOf ks with
        | error e => rw [h1] at h; simp at h
        | ok ins =>
          cases h2 : wasmOutputsOf f.outputs with
          | error e => rw [h1, h2] at h; simp at h
          | ok outs =>
            rw [h1, h2] at h
            simp only [Except.ok.injEq] at h
            have hk : k = .unsafePointer := by simpa using hk
            subst hk
            exact ⟨ks, ins, outs, by simpa using hf, rfl, h1, rfl, h.symm⟩

/-- **C81**, collecting: a value can be imported exactly if it is a function of the context whose parameters are `int32` or `int64`
and that has at most one such result. -/
theorem c81_append (t : Imports) (name : String) (f : GoValue) : (∃ u, t.append name f = .ok u) ↔ Importable f := by
  constructor
  · rintro ⟨u, h⟩
    obtain ⟨ks, ins, outs, h1, h2, h3, h4, -⟩ := append_run t name f h
    exact ⟨h1, ⟨ks, h2, wasmInputs_ok.mp ⟨_, h3⟩⟩, wasmOutputs_ok.mp ⟨_, h4⟩⟩
  · rintro ⟨h1, ⟨ks, h2, h3⟩, h4⟩
    obtain ⟨ins, h3⟩ := wasmInputs_ok.mpr h3
    obtain ⟨outs, h4⟩ := wasmOutputs_ok.mpr h4
    unfold Imports.append
    rw [h1, h2]
    simp only [Bool.not_true, Bool.false_eq_true, if_false, ne_eq, not_true_eq_false, h3, h4]
    exact ⟨_, rfl⟩

theorem lookup_put (t : Imports) (name : String) (m : Import) (ns' name' : String) :
    (t.put name m).lookup ns' name' = if ns' = t.currentNamespace ∧ name' = name then some m else t.lookup ns' name' := by
  unfold Imports.lookup Imports.put
  dsimp only
  rw [AMap.get?_insert]
  by_cases h : ns' = t.currentNamespace
  · subst h
    simp only [if_true, Option.bind_some, true_and]
    rw [AMap.get?_insert]
    by_cases hn : name' = name
    · simp [hn]
    · rw [if_neg (fun h => hn h.symm), if_neg hn]
      cases t.imports.get? t.currentNamespace <;> rfl
  · rw [if_neg (fun h' => h h'.symm), if_neg (fun h' => h h'.1)]

/-- **C81**, collecting: an import is found under its name in the current namespace, with the types of the function; all other
imports stay as they were. -/
theorem c81_found (t u : Imports) (name : String) (f : GoValue) (h : t.append name f = .ok u) (ns name' : String) :
    (u.lookup ns name').map (fun i => (i.run, i.wasmInputs.map WasmType.kind, i.wasmOutputs.map WasmType.kind)) =
      if ns = t.currentNamespace ∧ name' = name then some (f.run, f.inputs.tail, f.outputs)
      else (t.lookup ns name').map (fun i => (i.run, i.wasmInputs.map WasmType.kind, i.wasmOutputs.map WasmType.kind)) := by
  obtain ⟨ks, ins, outs, -, h2, h3, h4, rfl⟩ := append_run t name f h
  have e1 : ∀ (ks : List GoKind) ins, wasmInputsOf ks = .ok ins → ins.map WasmType.kind = ks := by
    intro ks
    induction ks with
    | nil => intro ins h; cases h; rfl
    | cons k ks ih =>
      intro ins h
      rw [wasmInputsOf] at h
      cases hx : wasmInputsOf ks with
      | error e => rw [hx] at h; cases k <;> cases h
      | ok ts =>
        rw [hx] at h
        cases k <;> cases h
        all_goals rw [List.map_cons, ih ts hx]; rfl
  have e2 : outs.map WasmType.kind = f.outputs := by
    revert h4
    match f.outputs with
    | [] => intro h; cases h; rfl
    | [k] => intro h; cases k <;> cases h <;> rfl
    | _ :: _ :: _ => intro h; cases h
  rw [lookup_put]
  split
  · rw [h2]; simp [e1 ks ins h3, e2]
  · rfl

/-! ### The table -/

/-- all registrations, in order -/
def allImports : List (String × GoValue) := elrondEIImports ++ bigIntImports ++ smallIntImports ++ cryptoImports

theorem names_nodup : (allImports.map Prod.fst).Nodup := by decide +kernel

/-- a function of the API -/
def IsApi (f : GoValue) : Prop := ∃ l o, ∃ c : Curried l, f = .ofSig l o c

theorem allImports_api : ∀ r ∈ allImports, IsApi r.2 := by
  unfold allImports
  intro r h
  simp only [List.mem_append] at h
  rcases h with ((h | h) | h) | h
  all_goals
    revert r
    repeat (refine List.forall_mem_cons.mpr ⟨⟨_, _, _, rfl⟩, ?_⟩)
    exact fun _ h => absurd h (List.not_mem_nil)

/-- what a run of registrations of functions of the API gives -/
theorem appendAll_api {l : List (String × GoValue)} (hl : ∀ r ∈ l, IsApi r.2) (hn : (l.map Prod.fst).Nodup) (t : Imports)
    (hc : t.currentNamespace = "env") : ∃ u, t.appendAll l = .ok u ∧ u.currentNamespace = "env" ∧
      ∀ ns name, u.lookup ns name = match (if ns = "env" then l.find? (·.1 = name) else none) with
        | some r => some ⟨r.2.run, (wasmInputsOf r.2.inputs.tail).toOption.getD [], (wasmOutputsOf r.2.outputs).toOption.getD [], "env"⟩
        | none => t.lookup ns name := by
  induction l generalizing t with
  | nil => exact ⟨t, rfl, hc, fun ns name => by simp⟩
  | cons r l ih =>
    obtain ⟨name0, f⟩ := r
    obtain ⟨⟨ins, o, c, hf⟩, hl'⟩ := List.forall_mem_cons.mp hl
    have hf : f = .ofSig ins o c := hf
    rw [List.map_cons, List.nodup_cons] at hn
    obtain ⟨u, hu⟩ := (c81_append t name0 f).mpr (by
      subst hf
      refine ⟨rfl, ⟨ins.map WasmType.kind, rfl, ?_⟩, ?_, ?_⟩
      · intro k hk
        obtain ⟨x, -, rfl⟩ := List.mem_map.mp hk
        cases x <;> simp [WasmType.kind]
      · cases o <;> simp [GoValue.ofSig]
      · intro k hk
        obtain ⟨x, -, rfl⟩ := List.mem_map.mp (show k ∈ o.toList.map WasmType.kind from hk)
        cases x <;> simp [WasmType.kind])
    obtain ⟨ks, ins', outs', -, h2, h3, h4, h5⟩ := append_run t name0 f hu
    have hcu : u.currentNamespace = "env" := by rw [h5]; exact hc
    obtain ⟨v, h6, h7, h8⟩ := ih hl' hn.2 u hcu
    refine ⟨v, ?_, h7, ?_⟩
    · unfold Imports.appendAll
      rw [hu]
      exact h6
    · intro ns name
      rw [h8]
      have hlk : u.lookup ns name = if ns = "env" ∧ name = name0 then some ⟨f.run, ins', outs', "env"⟩ else t.lookup ns name := by
        rw [h5, lookup_put, hc]
      rw [List.find?_cons]
      by_cases hns : ns = "env"
      · subst hns
        simp only [if_true]
        by_cases hnm : name0 = name
        · subst hnm
          have hno : l.find? (·.1 = name0) = none := by
            rw [List.find?_eq_none]
            intro x hx
            simp only [decide_eq_true_eq]
            intro hxe
            exact hn.1 (List.mem_map.mpr ⟨x, hx, hxe⟩)
          rw [hno, hlk]
          simp [h2, h3, h4, Except.toOption]
        · have : decide (name0 = name) = false := by simp [hnm]
          simp only [this]
          rw [hlk, if_neg (by rintro ⟨-, h⟩; exact hnm h.symm)]
      · simp only [if_neg hns]
        rw [hlk, if_neg (fun h => hns h.1)]

theorem appendAll_append (t : Imports) (l l' : List (String × GoValue)) :
    t.appendAll (l ++ l') = t.appendAll l >>= fun u => u.appendAll l' := by
  induction l generalizing t with
  | nil => rfl
  | cons r l ih =>
    obtain ⟨n, f⟩ := r
    rw [List.cons_append, Imports.appendAll, Imports.appendAll]
    cases h : t.append n f with
    | error e => rfl
    | ok u => exact ih u

theorem inNamespace_same (t : Imports) (ns : String) (h : t.currentNamespace = ns) : t.inNamespace ns = t := by
  subst h; rfl

theorem append_ns (t u : Imports) (n : String) (f : GoValue) (h : t.append n f = .ok u) : u.currentNamespace = t.currentNamespace := by
  obtain ⟨_, _, _, -, -, -, -, rfl⟩ := append_run t n f h; rfl

theorem appendAll_ns (l : List (String × GoValue)) (t u : Imports) (h : t.appendAll l = .ok u) :
    u.currentNamespace = t.currentNamespace := by
  induction l generalizing t with
  | nil => cases h; rfl
  | cons r l ih =>
    obtain ⟨n, f⟩ := r
    unfold Imports.appendAll at h
    cases h1 : t.append n f with
    | error e => rw [h1] at h; cases h
    | ok v => rw [h1] at h; exact (ih v h).trans (append_ns t v n f h1)

theorem four_runs (l1 l2 l3 l4 : List (String × GoValue)) :
    (do
      let t ← (Imports.new.inNamespace "env").appendAll l1
      let t ← (t.inNamespace "env").appendAll l2
      let t ← (t.inNamespace "env").appendAll l3
      (t.inNamespace "env").appendAll l4) = Imports.new.appendAll (l1 ++ l2 ++ l3 ++ l4) := by
  rw [appendAll_append, appendAll_append, appendAll_append, inNamespace_same Imports.new "env" rfl]
  cases h1 : Imports.new.appendAll l1 with
  | error e => rfl
  | ok t1 =>
    simp only [ok_bind]
    have n1 := appendAll_ns _ _ _ h1
    rw [inNamespace_same t1 "env" n1]
    cases h2 : t1.appendAll l2 with
    | error e => rfl
    | ok t2 =>
      simp only [ok_bind]
      have n2 := (appendAll_ns _ _ _ h2).trans n1
      rw [inNamespace_same t2 "env" n2]
      cases h3 : t2.appendAll l3 with
      | error e => rfl
      | ok t3 =>
        simp only [ok_bind]
        rw [inNamespace_same t3 "env" ((appendAll_ns _ _ _ h3).trans n2)]

theorem hostImports_all : hostImports = Imports.new.appendAll allImports := four_runs _ _ _ _

/-- the imports of a host, one by one -/
theorem hostImports_lookup : ∃ t, hostImports = .ok t ∧ ∀ ns name m, t.lookup ns name = some m ↔
    ns = "env" ∧ ∃ l o, ∃ c : Curried l, (name, GoValue.ofSig l o c) ∈ allImports ∧ m = ⟨applyTo l c, l, o.toList, "env"⟩ := by
  obtain ⟨t, h1, -, h2⟩ := appendAll_api allImports_api names_nodup Imports.new rfl
  refine ⟨t, hostImports_all.trans h1, fun ns name m => ?_⟩
  rw [h2]
  by_cases hns : ns = "env"
  · subst hns
    simp only [if_true, true_and]
    constructor
    · intro h
      split at h
      · rename_i r hr
        have hm := List.mem_of_find?_eq_some hr
        have hp := List.find?_some hr
        simp only [decide_eq_true_eq] at hp
        obtain ⟨l, o, c, hf⟩ := allImports_api r hm
        obtain ⟨rn, rf⟩ := r
        simp only at hp hf
        subst hp hf
        refine ⟨l, o, c, hm, ?_⟩
        cases h
        simp only [GoValue.ofSig, List.tail_cons, wasmInputs_map, wasmOutputs_map, Except.toOption, Option.getD_some]
      · cases h
    · rintro ⟨l, o, c, hm, rfl⟩
      have hfind : ∀ (rows : List (String × GoValue)), (rows.map Prod.fst).Nodup → (name, GoValue.ofSig l o c) ∈ rows →
          rows.find? (·.1 = name) = some (name, GoValue.ofSig l o c) := by
        intro rows
        induction rows with
        | nil => intro _ h; cases h
        | cons r rows ih =>
          intro hn hm
          rw [List.map_cons, List.nodup_cons] at hn
          rw [List.find?_cons]
          rcases List.mem_cons.mp hm with rfl | hm
          · simp
          · have : decide (r.1 = name) = false := by
              simp only [decide_eq_false_iff_not]
              intro he
              exact hn.1 (List.mem_map.mpr ⟨_, hm, he.symm⟩)
            simp only [this]
            exact ih hn.2 hm
      rw [hfind _ names_nodup hm]
      simp only [GoValue.ofSig, List.tail_cons, wasmInputs_map, wasmOutputs_map, Except.toOption, Option.getD_some]
  · simp only [hns, false_and, iff_false]
    intro h; cases h

/-! ### Names, arguments and calls -/

/-- what holds for all calls of a function -/
def AllCalls : (l : List WasmType) → Curried l → (List WasmVal → EeiCall → Prop) → Prop
  | [], c, P => P [] c
  | .i32 :: l, f, P => ∀ v : Int32, AllCalls l (f v) fun args c => P (.i32 v :: args) c
  | .i64 :: l, f, P => ∀ v : Int64, AllCalls l (f v) fun args c => P (.i64 v :: args) c

theorem AllCalls.apply : ∀ (l : List WasmType) (f : Curried l) (P : List WasmVal → EeiCall → Prop), AllCalls l f P →
    ∀ args c, applyTo l f args = some c → P args c
  | [], c, P, h, args, c', ha => by
    cases args with
    | nil => cases ha; exact h
    | cons a args => cases ha
  | .i32 :: l, f, P, h, args, c, ha => by
    match args, ha with
    | .i32 v :: args, ha => exact AllCalls.apply l (f v) _ (h v) args c ha
  | .i64 :: l, f, P, h, args, c, ha => by
    match args, ha with
    | .i64 v :: args, ha => exact AllCalls.apply l (f v) _ (h v) args c ha

/-- a function can be called with arguments of its types, and with no others -/
theorem applyTo_typed : ∀ (l : List WasmType) (f : Curried l) (args : List WasmVal),
    (∃ c, applyTo l f args = some c) ↔ args.map WasmVal.type = l
  | [], c, [] => ⟨fun _ => rfl, fun _ => ⟨c, rfl⟩⟩
  | [], c, _ :: _ => by simp [applyTo]
  | .i32 :: l, f, [] => by simp [applyTo]
  | .i64 :: l, f, [] => by simp [applyTo]
  | .i32 :: l, f, .i32 v :: args => by
    simp only [applyTo, List.map_cons, WasmVal.type, List.cons.injEq, true_and]; exact applyTo_typed l (f v) args
  | .i64 :: l, f, .i64 v :: args => by
    simp only [applyTo, List.map_cons, WasmVal.type, List.cons.injEq, true_and]; exact applyTo_typed l (f v) args
  | .i32 :: l, f, .i64 v :: args => by simp [applyTo, WasmVal.type]
  | .i64 :: l, f, .i32 v :: args => by simp [applyTo, WasmVal.type]

/-- the calls of a registered function have its name -/
def CallsNamed (r : String × GoValue) : Prop := ∀ args c, r.2.run args = some c → asCalled c = some (r.1, args)

theorem named_of {name : String} {l : List WasmType} {o : Option WasmType} {f : Curried l}
    (h : AllCalls l f fun args c => asCalled c = some (name, args)) : CallsNamed (name, .ofSig l o f) :=
  fun args c hc => AllCalls.apply l f _ h args c hc

theorem allImports_named : ∀ r ∈ allImports, CallsNamed r := by
  unfold allImports
  intro r h
  simp only [List.mem_append] at h
  rcases h with ((h | h) | h) | h
  all_goals
    revert r
    repeat (refine List.forall_mem_cons.mpr ⟨named_of (by repeat (first | exact rfl | intro _)), ?_⟩)
    exact fun _ h => absurd h (List.not_mem_nil)

/-- the calls with a name and arguments are registered -/
theorem registered_call {c : EeiCall} {name : String} {args : List WasmVal} (h : asCalled c = some (name, args)) :
    ∃ l o, ∃ f : Curried l, (name, GoValue.ofSig l o f) ∈ allImports ∧ applyTo l f args = some c := by
  have mem : ∀ {r : String × GoValue} (i : Nat), allImports[i]? = some r → r ∈ allImports := fun i h => List.mem_of_getElem? h
  match c, h with
  | .getSCAddress a, eq => cases eq; exact ⟨_, _, _, mem 0 rfl, rfl⟩
  | .getOwnerAddress a, eq => cases eq; exact ⟨_, _, _, mem 1 rfl, rfl⟩
  | .getShardOfAddress a, eq => cases eq; exact ⟨_, _, _, mem 2 rfl, rfl⟩
  | .isSmartContract a, eq => cases eq; exact ⟨_, _, _, mem 3 rfl, rfl⟩
  | .getExternalBalance a b, eq => cases eq; exact ⟨_, _, _, mem 4 rfl, rfl⟩
  | .getBlockHash a b, eq => cases eq; exact ⟨_, _, _, mem 5 rfl, rfl⟩
  | .transferValue a b c d, eq => cases eq; exact ⟨_, _, _, mem 6 rfl, rfl⟩
  | .transferESDTExecute a b c d e f g h i j, eq => cases eq; exact ⟨_, _, _, mem 7 rfl, rfl⟩
  | .transferESDTNFTExecute a b c d e f g h i j k, eq => cases eq; exact ⟨_, _, _, mem 8 rfl, rfl⟩
  | .transferESDT a b c d e f g, eq => cases eq; exact ⟨_, _, _, mem 9 rfl, rfl⟩
  | .transferValueExecute a b c d e f g h, eq => cases eq; exact ⟨_, _, _, mem 10 rfl, rfl⟩
  | .asyncCall a b c d, eq => cases eq; exact ⟨_, _, _, mem 11 rfl, rfl⟩
  | .getArgumentLength a, eq => cases eq; exact ⟨_, _, _, mem 12 rfl, rfl⟩
  | .getArgument a b, eq => cases eq; exact ⟨_, _, _, mem 13 rfl, rfl⟩
  | .getFunction a, eq => cases eq; exact ⟨_, _, _, mem 14 rfl, rfl⟩
  | .getNumArguments, eq => cases eq; exact ⟨_, _, _, mem 15 rfl, rfl⟩
  | .storageStore a b c d, eq => cases eq; exact ⟨_, _, _, mem 16 rfl, rfl⟩
  | .storageLoadLength a b, eq => cases eq; exact ⟨_, _, _, mem 17 rfl, rfl⟩
  | .storageLoad a b c, eq => cases eq; exact ⟨_, _, _, mem 18 rfl, rfl⟩
  | .storageLoadFromAddress a b c d, eq => cases eq; exact ⟨_, _, _, mem 19 rfl, rfl⟩
  | .getStorageLock a b, eq => cases eq; exact ⟨_, _, _, mem 20 rfl, rfl⟩
  | .setStorageLock a b c, eq => cases eq; exact ⟨_, _, _, mem 21 rfl, rfl⟩
  | .isStorageLocked a b, eq => cases eq; exact ⟨_, _, _, mem 22 rfl, rfl⟩
  | .clearStorageLock a b, eq => cases eq; exact ⟨_, _, _, mem 23 rfl, rfl⟩
  | .getCaller a, eq => cases eq; exact ⟨_, _, _, mem 24 rfl, rfl⟩
  | .checkNoPayment, eq => cases eq; exact ⟨_, _, _, mem 25 rfl, rfl⟩
  | .callValue a, eq => cases eq; exact ⟨_, _, _, mem 26 rfl, rfl⟩
  | .getESDTValue a, eq => cases eq; exact ⟨_, _, _, mem 27 rfl, rfl⟩
  | .getESDTTokenName a, eq => cases eq; exact ⟨_, _, _, mem 28 rfl, rfl⟩
  | .getESDTTokenType, eq => cases eq; exact ⟨_, _, _, mem 29 rfl, rfl⟩
  | .getESDTTokenNonce, eq => cases eq; exact ⟨_, _, _, mem 30 rfl, rfl⟩
  | .getCurrentESDTNFTNonce a b c, eq => cases eq; exact ⟨_, _, _, mem 31 rfl, rfl⟩
  | .getCallValueTokenName a b, eq => cases eq; exact ⟨_, _, _, mem 32 rfl, rfl⟩
  | .writeLog a b c d, eq => cases eq; exact ⟨_, _, _, mem 33 rfl, rfl⟩
  | .writeEventLog a b c d e, eq => cases eq; exact ⟨_, _, _, mem 34 rfl, rfl⟩
  | .finish a b, eq => cases eq; exact ⟨_, _, _, mem 35 rfl, rfl⟩
  | .signalError a b, eq => cases eq; exact ⟨_, _, _, mem 36 rfl, rfl⟩
  | .getBlockTimestamp, eq => cases eq; exact ⟨_, _, _, mem 37 rfl, rfl⟩
  | .getBlockNonce, eq => cases eq; exact ⟨_, _, _, mem 38 rfl, rfl⟩
  | .getBlockRound, eq => cases eq; exact ⟨_, _, _, mem 39 rfl, rfl⟩
  | .getBlockEpoch, eq => cases eq; exact ⟨_, _, _, mem 40 rfl, rfl⟩
  | .getBlockRandomSeed a, eq => cases eq; exact ⟨_, _, _, mem 41 rfl, rfl⟩
  | .getStateRootHash a, eq => cases eq; exact ⟨_, _, _, mem 42 rfl, rfl⟩
  | .getPrevBlockTimestamp, eq => cases eq; exact ⟨_, _, _, mem 43 rfl, rfl⟩
  | .getPrevBlockNonce, eq => cases eq; exact ⟨_, _, _, mem 44 rfl, rfl⟩
  | .getPrevBlockRound, eq => cases eq; exact ⟨_, _, _, mem 45 rfl, rfl⟩
  | .getPrevBlockEpoch, eq => cases eq; exact ⟨_, _, _, mem 46 rfl, rfl⟩
  | .getPrevBlockRandomSeed a, eq => cases eq; exact ⟨_, _, _, mem 47 rfl, rfl⟩
  | .getOriginalTxHash a, eq => cases eq; exact ⟨_, _, _, mem 48 rfl, rfl⟩
  | .getGasLeft, eq => cases eq; exact ⟨_, _, _, mem 49 rfl, rfl⟩
  | .executeOnDestContext a b c d e f g h, eq => cases eq; exact ⟨_, _, _, mem 50 rfl, rfl⟩
  | .executeOnDestContextByCaller a b c d e f g h, eq => cases eq; exact ⟨_, _, _, mem 51 rfl, rfl⟩
  | .executeOnSameContext a b c d e f g h, eq => cases eq; exact ⟨_, _, _, mem 52 rfl, rfl⟩
  | .delegateExecution a b c d e f g, eq => cases eq; exact ⟨_, _, _, mem 53 rfl, rfl⟩
  | .createContract a b c d e f g h i, eq => cases eq; exact ⟨_, _, _, mem 54 rfl, rfl⟩
  | .deployFromSourceContract a b c d e f g h, eq => cases eq; exact ⟨_, _, _, mem 55 rfl, rfl⟩
  | .upgradeContract a b c d e f g h i, eq => cases eq; exact ⟨_, _, _, mem 56 rfl, rfl⟩
  | .upgradeFromSourceContract a b c d e f g h, eq => cases eq; exact ⟨_, _, _, mem 57 rfl, rfl⟩
  | .executeReadOnly a b c d e f g, eq => cases eq; exact ⟨_, _, _, mem 58 rfl, rfl⟩
  | .getNumReturnData, eq => cases eq; exact ⟨_, _, _, mem 59 rfl, rfl⟩
  | .getReturnDataSize a, eq => cases eq; exact ⟨_, _, _, mem 60 rfl, rfl⟩
  | .getReturnData a b, eq => cases eq; exact ⟨_, _, _, mem 61 rfl, rfl⟩
  | .getESDTBalance a b c d e, eq => cases eq; exact ⟨_, _, _, mem 62 rfl, rfl⟩
  | .getESDTTokenData a b c d ⟨e, f, g, h, i, j, k, l⟩, eq => cases eq; exact ⟨_, _, _, mem 63 rfl, rfl⟩
  | .getESDTNFTNameLength a b c d, eq => cases eq; exact ⟨_, _, _, mem 64 rfl, rfl⟩
  | .getESDTNFTAttributeLength a b c d, eq => cases eq; exact ⟨_, _, _, mem 65 rfl, rfl⟩
  | .getESDTNFTURILength a b c d, eq => cases eq; exact ⟨_, _, _, mem 66 rfl, rfl⟩
  | .bigIntNew a, eq => cases eq; exact ⟨_, _, _, mem 67 rfl, rfl⟩
  | .bigIntByteLength false a, eq => cases eq; exact ⟨_, _, _, mem 68 rfl, rfl⟩
  | .bigIntByteLength true a, eq => cases eq; exact ⟨_, _, _, mem 69 rfl, rfl⟩
  | .bigIntGetBytes false a b, eq => cases eq; exact ⟨_, _, _, mem 70 rfl, rfl⟩
  | .bigIntGetBytes true a b, eq => cases eq; exact ⟨_, _, _, mem 71 rfl, rfl⟩
  | .bigIntSetBytes false a b c, eq => cases eq; exact ⟨_, _, _, mem 72 rfl, rfl⟩
  | .bigIntSetBytes true a b c, eq => cases eq; exact ⟨_, _, _, mem 73 rfl, rfl⟩
  | .bigIntIsInt64 a, eq => cases eq; exact ⟨_, _, _, mem 74 rfl, rfl⟩
  | .bigIntGetInt64 a, eq => cases eq; exact ⟨_, _, _, mem 75 rfl, rfl⟩
  | .bigIntSetInt64 a b, eq => cases eq; exact ⟨_, _, _, mem 76 rfl, rfl⟩
  | .bigIntBin .add a b c, eq => cases eq; exact ⟨_, _, _, mem 77 rfl, rfl⟩
  | .bigIntBin .sub a b c, eq => cases eq; exact ⟨_, _, _, mem 78 rfl, rfl⟩
  | .bigIntBin .mul a b c, eq => cases eq; exact ⟨_, _, _, mem 79 rfl, rfl⟩
  | .bigIntBin .tdiv a b c, eq => cases eq; exact ⟨_, _, _, mem 80 rfl, rfl⟩
  | .bigIntBin .tmod a b c, eq => cases eq; exact ⟨_, _, _, mem 81 rfl, rfl⟩
  | .bigIntBin .ediv a b c, eq => cases eq; exact ⟨_, _, _, mem 82 rfl, rfl⟩
  | .bigIntBin .emod a b c, eq => cases eq; exact ⟨_, _, _, mem 83 rfl, rfl⟩
  | .bigIntUn .abs a b, eq => cases eq; exact ⟨_, _, _, mem 84 rfl, rfl⟩
  | .bigIntUn .neg a b, eq => cases eq; exact ⟨_, _, _, mem 85 rfl, rfl⟩
  | .bigIntSign a, eq => cases eq; exact ⟨_, _, _, mem 86 rfl, rfl⟩
  | .bigIntCmp a b, eq => cases eq; exact ⟨_, _, _, mem 87 rfl, rfl⟩
  | .bigIntUn .not a b, eq => cases eq; exact ⟨_, _, _, mem 88 rfl, rfl⟩
  | .bigIntBin .and a b c, eq => cases eq; exact ⟨_, _, _, mem 89 rfl, rfl⟩
  | .bigIntBin .or a b c, eq => cases eq; exact ⟨_, _, _, mem 90 rfl, rfl⟩
  | .bigIntBin .xor a b c, eq => cases eq; exact ⟨_, _, _, mem 91 rfl, rfl⟩
  | .bigIntShift .shr a b c, eq => cases eq; exact ⟨_, _, _, mem 92 rfl, rfl⟩
  | .bigIntShift .shl a b c, eq => cases eq; exact ⟨_, _, _, mem 93 rfl, rfl⟩
  | .bigIntFinish false a, eq => cases eq; exact ⟨_, _, _, mem 94 rfl, rfl⟩
  | .bigIntFinish true a, eq => cases eq; exact ⟨_, _, _, mem 95 rfl, rfl⟩
  | .bigIntStorageStoreUnsigned a b c, eq => cases eq; exact ⟨_, _, _, mem 96 rfl, rfl⟩
  | .bigIntStorageLoadUnsigned a b c, eq => cases eq; exact ⟨_, _, _, mem 97 rfl, rfl⟩
  | .bigIntGetArgument false a b, eq => cases eq; exact ⟨_, _, _, mem 98 rfl, rfl⟩
  | .bigIntGetArgument true a b, eq => cases eq; exact ⟨_, _, _, mem 99 rfl, rfl⟩
  | .bigIntGetCallValue a, eq => cases eq; exact ⟨_, _, _, mem 100 rfl, rfl⟩
  | .bigIntGetESDTCallValue a, eq => cases eq; exact ⟨_, _, _, mem 101 rfl, rfl⟩
  | .bigIntGetESDTExternalBalance a b c d e, eq => cases eq; exact ⟨_, _, _, mem 102 rfl, rfl⟩
  | .bigIntGetExternalBalance a b, eq => cases eq; exact ⟨_, _, _, mem 103 rfl, rfl⟩
  | .smallIntGetArgument false a, eq => cases eq; exact ⟨_, _, _, mem 104 rfl, rfl⟩
  | .smallIntGetArgument true a, eq => cases eq; exact ⟨_, _, _, mem 105 rfl, rfl⟩
  | .smallIntFinish false a, eq => cases eq; exact ⟨_, _, _, mem 106 rfl, rfl⟩
  | .smallIntFinish true a, eq => cases eq; exact ⟨_, _, _, mem 107 rfl, rfl⟩
  | .smallIntStorageStore false a b c, eq => cases eq; exact ⟨_, _, _, mem 108 rfl, rfl⟩
  | .smallIntStorageStore true a b c, eq => cases eq; exact ⟨_, _, _, mem 109 rfl, rfl⟩
  | .smallIntStorageLoad false a b, eq => cases eq; exact ⟨_, _, _, mem 110 rfl, rfl⟩
  | .smallIntStorageLoad true a b, eq => cases eq; exact ⟨_, _, _, mem 111 rfl, rfl⟩
  | .int64getArgument a, eq => cases eq; exact ⟨_, _, _, mem 112 rfl, rfl⟩
  | .int64storageStore a b c, eq => cases eq; exact ⟨_, _, _, mem 113 rfl, rfl⟩
  | .int64storageLoad a b, eq => cases eq; exact ⟨_, _, _, mem 114 rfl, rfl⟩
  | .int64finish a, eq => cases eq; exact ⟨_, _, _, mem 115 rfl, rfl⟩
  | .hash .sha256 a b c, eq => cases eq; exact ⟨_, _, _, mem 116 rfl, rfl⟩
  | .hash .keccak256 a b c, eq => cases eq; exact ⟨_, _, _, mem 117 rfl, rfl⟩
  | .hash .ripemd160 a b c, eq => cases eq; exact ⟨_, _, _, mem 118 rfl, rfl⟩
  | .verifyBLS a b c d, eq => cases eq; exact ⟨_, _, _, mem 119 rfl, rfl⟩
  | .verifyEd25519 a b c d, eq => cases eq; exact ⟨_, _, _, mem 120 rfl, rfl⟩
  | .verifySecp256k1 a b c d e, eq => cases eq; exact ⟨_, _, _, mem 121 rfl, rfl⟩

/-- **C81**, the table: no registration of the host is refused, none replaces another (there are 122 functions), and all are in the
namespace `env`. -/
theorem c81_imports : ∃ t, hostImports = .ok t ∧ t.count = 122 ∧ ∀ ns name m, t.lookup ns name = some m → ns = "env" ∧ m.namespace_ = "env" := by
  obtain ⟨t, ht, h⟩ := hostImports_lookup
  refine ⟨t, ht, ?_, fun ns name m hm => ?_⟩
  · have h1 : hostImports.toOption.map Imports.count = some 122 := by decide +kernel
    rw [ht] at h1
    exact Option.some.inj h1
  · obtain ⟨h1, l, o, c, -, rfl⟩ := (h ns name m).mp hm
    exact ⟨h1, rfl⟩

/-- the imports of a host, one by one -/
theorem lookup_iff {t : Imports} (ht : hostImports = .ok t) (ns name : String) (m : Import) : t.lookup ns name = some m ↔
    ns = "env" ∧ ∃ l o, ∃ c : Curried l, (name, GoValue.ofSig l o c) ∈ allImports ∧ m = ⟨applyTo l c, l, o.toList, "env"⟩ := by
  obtain ⟨u, hu, h⟩ := hostImports_lookup
  rw [ht] at hu
  cases hu
  exact h ns name m

/-- **C81**: the call that a contract makes with an imported function is the one of this name, with these arguments. -/
theorem c81_calls {t : Imports} (ht : hostImports = .ok t) (name : String) (args : List WasmVal) (c : EeiCall) :
    t.call name args = some c ↔ asCalled c = some (name, args) := by
  unfold Imports.call
  rw [Option.bind_eq_some_iff]
  constructor
  · rintro ⟨m, hm, hc⟩
    obtain ⟨-, l, o, f, hr, rfl⟩ := (lookup_iff ht "env" name m).mp hm
    exact allImports_named _ hr args c hc
  · intro h
    obtain ⟨l, o, f, hr, hc⟩ := registered_call h
    exact ⟨_, (lookup_iff ht "env" name _).mpr ⟨rfl, l, o, f, hr, rfl⟩, hc⟩

/-- **C81**: of all functions of the API, contracts can call exactly those that are not for groups of asynchronous calls. -/
theorem c81_reach {t : Imports} (ht : hostImports = .ok t) (c : EeiCall) :
    (∃ name args, t.call name args = some c) ↔ ¬ ForGroups c := by
  simp only [c81_calls ht]
  constructor
  · rintro ⟨name, args, h⟩
    cases c <;> first | (intro hg; exact hg) | cases h
  · intro h
    cases c
    all_goals try exact absurd trivial h
    all_goals try exact ⟨_, _, rfl⟩
    case bigIntByteLength x _ => cases x <;> exact ⟨_, _, rfl⟩
    case bigIntGetBytes x _ _ => cases x <;> exact ⟨_, _, rfl⟩
    case bigIntSetBytes x _ _ _ => cases x <;> exact ⟨_, _, rfl⟩
    case bigIntBin x _ _ _ => cases x <;> exact ⟨_, _, rfl⟩
    case bigIntUn x _ _ => cases x <;> exact ⟨_, _, rfl⟩
    case bigIntShift x _ _ _ => cases x <;> exact ⟨_, _, rfl⟩
    case bigIntFinish x _ => cases x <;> exact ⟨_, _, rfl⟩
    case bigIntGetArgument x _ _ => cases x <;> exact ⟨_, _, rfl⟩
    case smallIntGetArgument x _ => cases x <;> exact ⟨_, _, rfl⟩
    case smallIntFinish x _ => cases x <;> exact ⟨_, _, rfl⟩
    case smallIntStorageStore x _ _ _ => cases x <;> exact ⟨_, _, rfl⟩
    case smallIntStorageLoad x _ _ => cases x <;> exact ⟨_, _, rfl⟩
    case hash x _ _ _ => cases x <;> exact ⟨_, _, rfl⟩

/-- **C81**: different names or arguments make different calls. -/
theorem c81_unique {t : Imports} (ht : hostImports = .ok t) {name name' : String} {args args' : List WasmVal} {c : EeiCall}
    (h : t.call name args = some c) (h' : t.call name' args' = some c) : name = name' ∧ args = args' := by
  rw [c81_calls ht] at h h'
  rw [h] at h'
  simpa using h'

/-- **C81**: an imported function can be called with arguments of its types, and with no others. -/
theorem c81_typed {t : Imports} (ht : hostImports = .ok t) {name : String} {m : Import} (hm : t.lookup "env" name = some m)
    (args : List WasmVal) : (∃ c, t.call name args = some c) ↔ args.map WasmVal.type = m.wasmInputs := by
  unfold Imports.call
  rw [hm]
  obtain ⟨-, l, o, f, -, rfl⟩ := (lookup_iff ht "env" name m).mp hm
  exact applyTo_typed l f args

/-- the names of the imports -/
theorem names_iff (t : Imports) (name : String) : name ∈ t.names ↔ ∃ ns m, t.lookup ns name = some m := by
  unfold Imports.names Imports.lookup
  simp only [List.mem_flatMap, List.mem_map, Option.bind_eq_some_iff]
  constructor
  · rintro ⟨⟨ns, l⟩, h1, ⟨n, m⟩, h2, rfl⟩
    exact ⟨ns, m, l, (AMap.mem_entries_iff _ _ _).mp h1, (AMap.mem_entries_iff _ _ _).mp h2⟩
  · rintro ⟨ns, m, l, h1, h2⟩
    exact ⟨(ns, l), (AMap.mem_entries_iff _ _ _).mpr h1, (name, m), (AMap.mem_entries_iff _ _ _).mpr h2, rfl⟩

/-- **C81**: a module that exports a function with the name of an import is not accepted. -/
theorem c81_reserved {χ : Type} {t : Imports} (E : Env χ (String × List WasmVal)) (esdt : Bool) (m : WasmModule (String × List WasmVal))
    (h : verifyModule (linked t E) esdt m = none) (name : String) {i : Import} (hi : t.lookup "env" name = some i) :
    ∀ p ∈ m.exports, p.1 ≠ name.toUTF8.toList := by
  intro p hp he
  have h1 := ((c25_verify (E := linked t E) esdt m).mp h).1.names p hp
  have h2 : (t.names.any fun n => n.toUTF8.toList = p.1) = false := h1.notApi
  rw [List.any_eq_false] at h2
  exact h2 name ((names_iff t name).mpr ⟨_, _, hi⟩) (by simp [he])

/-! ### No groups of asynchronous calls -/

section
variable {χ A : Type} {E : Env χ A}

theorem noGroups_rt {s t : St χ A} (h : NoGroups s) (h1 : t.rt.cur.asyncContextInfo = s.rt.cur.asyncContextInfo) (h2 : t.rt.stack = s.rt.stack) :
    NoGroups t := by
  unfold NoGroups
  rw [h1, h2]
  exact h

theorem cleanInstance_calls (s : St χ A) : s.cleanInstance.rt.cur = s.rt.cur ∧ s.cleanInstance.rt.stack = s.rt.stack := by
  unfold St.cleanInstance
  split
  · exact ⟨rfl, rfl⟩
  · split <;> exact ⟨rfl, rfl⟩

theorem popInstance_calls (s : St χ A) : s.popInstance.rt.cur = s.rt.cur ∧ s.popInstance.rt.stack = s.rt.stack := by
  unfold St.popInstance
  split
  · exact ⟨rfl, rfl⟩
  · dsimp only
    split
    · exact ⟨rfl, rfl⟩
    · exact cleanInstance_calls _

theorem noGroups_popSet {s : St χ A} (h : NoGroups s) : NoGroups s.rtPopSet := by
  unfold St.rtPopSet
  split
  · exact h
  · rename_i p rest hs
    have h1 : NoGroups { s with rt := { s.rt with cur := p, stack := rest } } :=
      ⟨h.2 p (by rw [hs]; exact List.mem_cons_self), fun c hc => h.2 c (by rw [hs]; exact List.mem_cons_of_mem _ hc)⟩
    obtain ⟨e1, e2⟩ := popInstance_calls { s with rt := { s.rt with cur := p, stack := rest } }
    exact noGroups_rt h1 (congrArg RtCore.asyncContextInfo e1) e2

/-- without API functions for groups there are none -/
theorem noGroups_unary (hg : NoGroupApi E) : Unary E (NoGroups (χ := χ) (A := A)) where
  delete _ _ _ _ _ _ _ _ h := h
  step := by
    intro s t h hI
    cases h with
    | a _ h =>
      cases h with
      | dest _ i r h _ => exact (halt_dest h).elim
      | same _ i r h _ => exact (halt_same h).elim
      | undo _ i r a ci h => exact (halt_dest h).elim
      | rt c h =>
        cases h with
        | asyncCtx c hc => exact (hg hc).elim
        | _ => exact hI
      | _ => exact hI
    | clean _ => obtain ⟨e1, e2⟩ := cleanInstance_calls s; exact noGroups_rt hI (congrArg RtCore.asyncContextInfo e1) e2
    | failed c new m g h1 h2 h3 =>
      obtain ⟨e1, e2⟩ := cleanInstance_calls (newInstance m g new s)
      exact noGroups_rt hI (congrArg RtCore.asyncContextInfo e1) e2
    | finalize => obtain ⟨o, m, h⟩ := getVMOutput_only (E := E) s; rw [h]; exact hI
    | _ => exact hI
  stepH := by intro s t h hI; unfold NoGroups; rw [h.rt.1]; exact hI
  push := fun s hI => hI
  bcPopSet := fun s hI => by unfold NoGroups; rw [bcPopSet_rt]; exact hI
  bcPopDiscard := fun s hI => hI
  onError := fun e s hI => by obtain ⟨o, m, h⟩ := outputOnError_only (E := E) s e; rw [h]; exact hI
  enterDest := fun i s hI => ⟨rfl, List.forall_mem_cons.mpr ⟨hI.1, hI.2⟩⟩
  enterSame := fun i s hI => ⟨rfl, List.forall_mem_cons.mpr ⟨hI.1, hI.2⟩⟩
  popDest := fun b s hI => by
    unfold popDest
    cases b <;> exact noGroups_popSet hI
  popSameFail := fun s hI => by
    unfold popSameFail NoGroups
    rw [bcPopSet_rt]
    exact noGroups_popSet hI
  popSameOk := fun s hI => noGroups_popSet hI
  restore := fun g s hI => by obtain ⟨r, ins, h, _⟩ := restoreGas_only g s; rw [h]; exact hI

theorem noGroups_start (tx : Tx) (s : St χ A) : NoGroups (txStart E tx s) := by
  have h0 : NoGroups (hostInit E s) := ⟨rfl, fun c h => absurd h List.not_mem_nil⟩
  cases tx with
  | call i => exact ⟨rfl, h0.2⟩
  | create i =>
    unfold txStart
    dsimp only
    split
    · exact h0
    · obtain ⟨o, h⟩ := newAddress_only (E := E) i.vm.caller (hostInit E s)
      rw [h]
      exact ⟨rfl, h0.2⟩

open Classical in
/-- if the API offers no functions for groups of asynchronous calls, none arise -/
theorem noGroups_tx (hg : NoGroupApi E) (n : Nat) (tx : Tx) {s : St χ A} (hr : AtRest E s) (hn : (runTx E n tx s).1 ≠ none) :
    runTx (E.withApi (guardApi E (fun t => decide (NoGroups t)))) n tx s = runTx E n tx s :=
  runTx_guard (noGroups_unary hg).invariant _ (fun _ h => decide_eq_true h) n tx s hr (noGroups_start tx s) hn

theorem noGroups_end (hg : NoGroupApi E) (n : Nat) (tx : Tx) {s : St χ A} (hr : AtRest E s) (hn : (runTx E n tx s).1 ≠ none) :
    NoGroups (runTx E n tx s).2 := by
  have h1 := runTx_any (E := E) n tx s
  generalize (runTx E n tx s).2 = v at h1 ⊢
  generalize (runTx E n tx s).1 = q at h1 hn
  have key : ∀ (r : Res VMOutput) (t : St χ A), txBody E (execN E n) tx (hostInit E s) = (r, t) → r ≠ .oof → NoGroups (hostClean t) := by
    intro r t he hr'
    have h := (noGroups_unary hg).txBody (fun _ _ _ h => h) n tx hr he hr' (noGroups_start tx s)
    unfold hostClean
    split
    · exact h
    · obtain ⟨e1, e2⟩ := cleanInstance_calls t
      exact noGroups_rt h (congrArg RtCore.asyncContextInfo e1) e2
  cases h1 with
  | ok o t h5 => exact key _ t h5 (by simp)
  | panic t h5 => exact key _ t h5 (by simp)
  | oof t h5 => exact absurd rfl hn
  | reset o t h5 h6 =>
    have h := key _ t h5 (by simp)
    unfold St.resetWarm
    split <;> exact h

end

/-- the API that contracts see has no functions for groups -/
theorem linked_noGroups {χ : Type} {t : Imports} (ht : hostImports = .ok t) (E : Env χ (String × List WasmVal)) :
    NoGroupApi (linked t E) := by
  have key : ∀ c : Cmd, c.power = some .group → ¬ ApiRuns (linked t E) c := by
    rintro c hc ⟨⟨name, args⟩, h⟩
    have h : MayRun c (match t.call name args with | some c => eei E c | none => .panic) := h
    cases hcall : t.call name args with
    | none => rw [hcall] at h; exact h
    | some a =>
      rw [hcall] at h
      refine Eei.Only.not_mayRun ?_ (Eei.eei_proper E a) h
      intro _ ⟨hw, _, _⟩
      have h1 := hw _ hc
      have h2 := (c81_reach ht a).mp ⟨_, _, hcall⟩
      cases a <;> first | exact h2 trivial | (simp [EeiCall.powers] at h1)
  rintro ⟨_, ⟨_, h⟩ | ⟨_, h⟩⟩ <;> exact key _ rfl h

open Classical in
/-- **C81**: with the API that contracts see, a host in which every call of an API function first checks that neither the running
contract nor one that waits has a group of asynchronous calls does the same as the host without the check; and none is left at
the end. -/
theorem c81_groups {χ : Type} {t : Imports} (ht : hostImports = .ok t) (E : Env χ (String × List WasmVal)) (n : Nat) (tx : Tx)
    {s : St χ (String × List WasmVal)} (hr : AtRest (linked t E) s) (hn : (runTx (linked t E) n tx s).1 ≠ none) :
    runTx ((linked t E).withApi (guardApi (linked t E) (fun u => decide (NoGroups u)))) n tx s = runTx (linked t E) n tx s ∧
    NoGroups (runTx (linked t E) n tx s).2 :=
  ⟨noGroups_tx (linked_noGroups ht E) n tx hr hn, noGroups_end (linked_noGroups ht E) n tx hr hn⟩

/-! ### Examples -/

section
open Fixture

/-- the imports of the host -/
def table : Imports := hostImports.toOption.getD .new
theorem table_ok : hostImports = .ok table := by
  obtain ⟨t, h, -⟩ := c81_imports
  unfold table
  rw [h]
  rfl

example : table.call "storageStore" [.i32 1, .i32 2, .i32 3, .i32 4] = some (.storageStore 1 2 3 4) := (c81_calls table_ok _ _ _).mpr rfl
example : ∃ m, table.lookup "env" "setStorageLock" = some m ∧ m.wasmInputs = [.i32, .i32, .i64] ∧ m.wasmOutputs = [.i32] :=
  ⟨_, (lookup_iff table_ok _ _ _).mpr ⟨rfl, _, _, _, List.mem_of_getElem? (i := 21) rfl, rfl⟩, rfl, rfl⟩
example : table.call "setStorageLock" [.i32 1, .i32 2, .i32 3] = none := by decide +kernel
example : ForGroups (.setAsyncContextCallback 0 0 0 0) := trivial

/-- some functions that cannot be imported: no function, no context, a parameter of another type, two results -/
example : ¬ Importable ⟨true, [], [], fun _ => none⟩ := by rintro ⟨-, ⟨_, h, -⟩, -⟩; cases h
example : ¬ Importable ⟨true, [.unsafePointer, .other], [], fun _ => none⟩ := by
  rintro ⟨-, ⟨_, h, h'⟩, -⟩; cases h; simp at h'
example : ¬ Importable ⟨true, [.unsafePointer], [.int32, .int32], fun _ => none⟩ := fun h => absurd h.outputs.1 (by decide)

/-- A later import of a name replaces an earlier one without notice: it is the registered names being different that makes the
table complete. -/
example : ∃ t u, (Imports.new.append "f" (.ofSig [] none .checkNoPayment)) = .ok t ∧ t.append "f" (.ofSig [] none .getNumArguments) = .ok u ∧
    u.count = 1 ∧ u.call "f" [] = some .getNumArguments := ⟨_, _, rfl, rfl, by decide, rfl⟩

/-- a module over the names of the API -/
def namedMod (fns : List (Bytes × Prog (String × List WasmVal))) : WasmModule (String × List WasmVal) where
  exports := fns
  signature := fun n => if fns.any (fun p => p.1 = n) then some (0, 0) else none
  imports := fun _ => false
  hasMemory := true
  initMem := List.replicate 512 0

/-- the environment of the other examples, with one contract that calls the API by name -/
def namedEnv (m : WasmModule (String × List WasmVal)) : Env World (String × List WasmVal) where
  hook := hook
  wasm := { compile := fun _ => .ok m, cacheOf := fun c => .ok c, fromCompiled := fun _ => .ok m, growOk := fun n => n < 1048576 }
  crypto := env0.crypto
  api := fun _ => .panic
  isBuiltin := env0.isBuiltin
  apiNames := fun _ => false
  errText := env0.errText
  retCodeText := env0.retCodeText
  encodeAsync := env0.encodeAsync
  decodeAsync := env0.decodeAsync
  vmType := env0.vmType
  elrondPrefix := env0.elrondPrefix
  nftNoncePrefix := env0.nftNoncePrefix
  useWarm := false
  maxInstances := 10
  v2Epoch := 0
  aotEpoch := 0
  dynEpoch := 0
  v3Epoch := 0
  esdtEpoch := 0

def namedHost : St World (String × List WasmVal) where
  world := [{ accts := AMap.empty.insert (addr 100) (contract [1]) }]
  flags := {}
  big := {}
  sto := {}
  out := {}
  met := { sched := sched }
  rt := {}
  bcStack := []
  insts := fun _ => .blank
  nextInst := 0

theorem namedHost_rest (E : Env World (String × List WasmVal)) : AtRest E namedHost := ⟨.inl rfl, rfl, .inl rfl⟩

/-- `f` answers who called it; `g` tries to make a group of asynchronous calls -/
def namedProg : WasmModule (String × List WasmVal) := namedMod
  [(f, .call ("getCaller", [.i32 0]) fun _ => .call ("finish", [.i32 0, .i32 32]) fun _ => .ret),
   (g, .call ("setAsyncContextCallback", [.i32 0, .i32 1, .i32 0, .i32 1]) fun _ => .ret)]

/-- the hypotheses of `c81_groups`, for a contract that does what it should -/
example : ((runTx (linked table (namedEnv namedProg)) 3 (callTx (addr 1) (addr 100) f) namedHost).1.map
    (Option.map fun o => (o.returnCode, o.returnData))) = some (some (.ok, [addr 1])) := by decide +kernel
/-- and for one that asks for what cannot be linked -/
example : (runTx (linked table (namedEnv namedProg)) 3 (callTx (addr 1) (addr 100) g) namedHost).1 = some none := by decide +kernel

/-- the module is accepted; it would not be with a function named `finish` -/
example : verifyModule (linked table (namedEnv namedProg)) true namedProg = none := by decide +kernel
example : verifyModule (linked table (namedEnv namedProg)) true (namedMod [("finish".toUTF8.toList, .ret)]) ≠ none := by decide +kernel

end

end Arwen.Props
