import Verif.Props.Schedules
/-
C86: the three gas schedules that come with the scenario runner.
-/
namespace Arwen.Props
open Arwen.Config Arwen.Mock Arwen.Spec

/-- a number for a name, to compare names faster -/
def nameNumber (s : String) : Nat := s.toList.foldl (fun n c => n * 4294967296 + c.toNat) 0

/-- no number twice -/
def numbersOnce : List Nat → Bool
  | [] => true
  | n :: l => l.all (fun m => !Nat.beq n m) && numbersOnce l

theorem nodup_of_numbers : ∀ (l : List String), numbersOnce (l.map nameNumber) = true → l.Nodup
  | [], _ => .nil
  | a :: l, h => by
    simp only [List.map_cons, numbersOnce, Bool.and_eq_true, List.all_eq_true, List.mem_map] at h
    refine List.nodup_cons.2 ⟨fun ha => ?_, nodup_of_numbers l h.2⟩
    have := h.1 _ ⟨a, ha, rfl⟩
    rw [Nat.beq_refl] at this
    cases this

theorem opcodes_once : opcodeFields.Nodup := nodup_of_numbers _ (by decide +kernel)

theorem v1_opcodes : v1Opcode.map Prod.fst = opcodeFields := by decide +kernel
theorem v2_opcodes : v2Opcode.map Prod.fst = opcodeFields := by decide +kernel
theorem v3_opcodes : v3Opcode.map Prod.fst = opcodeFields := by decide +kernel

theorem goodV1 : GoodText scheduleV1 where
  sections := by decide +kernel
  names := by
    intro p hp
    simp only [scheduleV1, List.mem_cons, List.not_mem_nil, or_false] at hp
    rcases hp with rfl | rfl | rfl | rfl | rfl | rfl | rfl | rfl
    iterate 7 exact nodup_of_numbers _ (by decide +kernel)
    show (v1Opcode.map Prod.fst).Nodup
    rw [v1_opcodes]; exact opcodes_once
  numbers := by decide +kernel
  all := by
    intro s
    cases s
    · exact ⟨v1Base, by simp [scheduleV1, Section.key], by decide +kernel⟩
    · exact ⟨v1Api, by simp [scheduleV1, Section.key], by decide +kernel⟩
    · exact ⟨v1BigInt, by simp [scheduleV1, Section.key], by decide +kernel⟩
    · exact ⟨v1Eth, by simp [scheduleV1, Section.key], by decide +kernel⟩
    · exact ⟨v1Crypto, by simp [scheduleV1, Section.key], by decide +kernel⟩
    · refine ⟨v1Opcode, by simp [scheduleV1, Section.key], fun f hf => ?_⟩
      rw [v1_opcodes]; exact hf

theorem goodV2 : GoodText scheduleV2 where
  sections := by decide +kernel
  names := by
    intro p hp
    simp only [scheduleV2, List.mem_cons, List.not_mem_nil, or_false] at hp
    rcases hp with rfl | rfl | rfl | rfl | rfl | rfl | rfl | rfl
    iterate 7 exact nodup_of_numbers _ (by decide +kernel)
    show (v2Opcode.map Prod.fst).Nodup
    rw [v2_opcodes]; exact opcodes_once
  numbers := by decide +kernel
  all := by
    intro s
    cases s
    · exact ⟨v2Base, by simp [scheduleV2, Section.key], by decide +kernel⟩
    · exact ⟨v2Api, by simp [scheduleV2, Section.key], by decide +kernel⟩
    · exact ⟨v2BigInt, by simp [scheduleV2, Section.key], by decide +kernel⟩
    · exact ⟨v2Eth, by simp [scheduleV2, Section.key], by decide +kernel⟩
    · exact ⟨v2Crypto, by simp [scheduleV2, Section.key], by decide +kernel⟩
    · refine ⟨v2Opcode, by simp [scheduleV2, Section.key], fun f hf => ?_⟩
      rw [v2_opcodes]; exact hf

theorem goodV3 : GoodText scheduleV3 where
  sections := by decide +kernel
  names := by
    intro p hp
    simp only [scheduleV3, List.mem_cons, List.not_mem_nil, or_false] at hp
    rcases hp with rfl | rfl | rfl | rfl | rfl | rfl | rfl | rfl
    iterate 7 exact nodup_of_numbers _ (by decide +kernel)
    show (v3Opcode.map Prod.fst).Nodup
    rw [v3_opcodes]; exact opcodes_once
  numbers := by decide +kernel
  all := by
    intro s
    cases s
    · exact ⟨v3Base, by simp [scheduleV3, Section.key], by decide +kernel⟩
    · exact ⟨v3Api, by simp [scheduleV3, Section.key], by decide +kernel⟩
    · exact ⟨v3BigInt, by simp [scheduleV3, Section.key], by decide +kernel⟩
    · exact ⟨v3Eth, by simp [scheduleV3, Section.key], by decide +kernel⟩
    · exact ⟨v3Crypto, by simp [scheduleV3, Section.key], by decide +kernel⟩
    · refine ⟨v3Opcode, by simp [scheduleV3, Section.key], fun f hf => ?_⟩
      rw [v3_opcodes]; exact hf

theorem good_of_kind (k : GasKind) (hk : k ≠ .dummy) : ∃ x, GoodText x ∧ scheduleFor k = loadSchedule (treeOf x) ∧
    ∀ s f n, Promised k s f n ↔ InText x s.key f n := by
  cases k with
  | default => exact ⟨_, goodV3, rfl, fun s f n => ⟨fun h => by cases h; assumption, .newest⟩⟩
  | dummy => exact absurd rfl hk
  | v1 => exact ⟨_, goodV1, rfl, fun s f n => ⟨fun h => by cases h; assumption, .first⟩⟩
  | v2 => exact ⟨_, goodV2, rfl, fun s f n => ⟨fun h => by cases h; assumption, .second⟩⟩
  | v3 => exact ⟨_, goodV3, rfl, fun s f n => ⟨fun h => by cases h; assumption, .third⟩⟩

/-- every kind of schedule promises one cost for every operation -/
theorem c86_promised (k : GasKind) (s : Section) (f : String) (hf : Required s f) :
    ∃ n, Promised k s f n ∧ 0 < n ∧ ∀ n', Promised k s f n' → n' = n := by
  by_cases hk : k = .dummy
  · subst hk
    by_cases h : s = .api ∧ f = "AsyncCallbackGasLock"
    · obtain ⟨rfl, rfl⟩ := h
      refine ⟨_, .lock, by decide, fun n' h' => ?_⟩
      cases h' with
      | one h => exact absurd ⟨rfl, rfl⟩ h
      | lock => rfl
    · refine ⟨_, .one h, by decide, fun n' h' => ?_⟩
      cases h' with
      | one => rfl
      | lock => exact absurd ⟨rfl, rfl⟩ h
  · obtain ⟨x, g, -, hp⟩ := good_of_kind k hk
    obtain ⟨m, c, -, -, hc⟩ := goodText_accepted ⟨fun _ _ => false, fun _ => []⟩ g
    obtain ⟨n, hn, -, h0⟩ := hc s f hf
    exact ⟨n, (hp s f n).2 hn, h0, fun n' h' => inText_unique g ((hp s f n').1 h') hn⟩

/-- Every gas schedule that a scenario can choose can be read and is accepted by the virtual machine, which then charges for every
operation exactly what the schedule promises. -/
theorem c86_accepted (D : Decoder) (k : GasKind) : ∃ m c, scheduleFor k = some m ∧ createGasConfig D m = .ok c ∧
    ∀ s f, Required s f → Promised k s f (c s f).toNat := by
  by_cases hk : k = .dummy
  · subst hk
    obtain ⟨c, hc, hv⟩ := c43_complete D (makeGasMap 1 100000) (by
      intro s f hf
      obtain ⟨t, ht, hv⟩ := make_gives 1 100000 s f hf
      refine ⟨t, _, ht, hv, ?_⟩
      rw [charged]
      split <;> split <;> decide)
    refine ⟨_, c, rfl, hc, fun s f hf => ?_⟩
    obtain ⟨t, ht, hv'⟩ := make_gives 1 100000 s f hf
    rw [hv s f t _ hf ht hv', charged]
    by_cases h : s = .api ∧ f = "AsyncCallbackGasLock"
    · obtain ⟨rfl, rfl⟩ := h
      exact .lock
    · rw [if_neg h]
      have : (if s = .opcode then (1 : UInt64).toNat % 2 ^ 32 else (1 : UInt64).toNat) = 1 := by split <;> rfl
      rw [this]
      exact .one h
  · obtain ⟨x, g, hs, hp⟩ := good_of_kind k hk
    obtain ⟨m, c, hm, hc, hv⟩ := goodText_accepted D g
    refine ⟨m, c, hs.trans hm, hc, fun s f hf => ?_⟩
    obtain ⟨n, hn, he, -⟩ := hv s f hf
    rw [he]; exact (hp s f n).2 hn

/-- The choice of a scenario takes effect if it is the first one: in the costs of the virtual machine and in those of Wasmer. The next
ones change nothing, whatever they are. -/
theorem c86_chosen (D : Decoder) (x : ExecGas) (k : GasKind) (later : List GasKind) (hx : x.loaded = false) :
    ∃ y, later.foldl (fun r k => r.bind (chooseSchedule D k)) (chooseSchedule D k x) = some y ∧ y.loaded = true ∧
      (∀ s f, Required s f → Promised k s f (y.host.costs s f).toNat) ∧ y.host.wasmer = opcodeCosts y.host.costs := by
  obtain ⟨m, c, hm, hc, hp⟩ := c86_accepted D k
  have h1 : chooseSchedule D k x = some { x with loaded := true, host := { stored := m, costs := c, wasmer := opcodeCosts c } } := by
    simp [chooseSchedule, hx, hm, c43_applied D m x.host c hc]
  rw [h1]
  have key : ∀ (later : List GasKind) (y : ExecGas), y.loaded = true →
      later.foldl (fun r k => r.bind (chooseSchedule D k)) (some y) = some y := by
    intro later
    induction later with
    | nil => intro y _; rfl
    | cons k l ih =>
      intro y hy
      rw [List.foldl_cons]
      have : (some y).bind (chooseSchedule D k) = some y := by simp [chooseSchedule, hy]
      rw [this]; exact ih y hy
  exact ⟨_, key later _ rfl, rfl, hp, rfl⟩

theorem execGasFrom_ok (D : Decoder) (m : ScheduleMap) (c : GasCost) (h : createGasConfig D m = .ok c) :
    execGasFrom D m = .ok { loaded := false, host := { stored := m, costs := c, wasmer := opcodeCosts c }, builtins := m } := by
  have hn : newHost D m = .ok { stored := m, costs := c, wasmer := opcodeCosts c } := by simp only [newHost, h]; rfl
  simp only [execGasFrom, hn]

theorem new_spec (D : Decoder) (m : ScheduleMap) (c : GasCost) (h : createGasConfig D m = .ok c) (P : GasCost → Prop) (hc : P c) :
    ∃ x, execGasFrom D m = .ok x ∧ x.loaded = false ∧ P x.host.costs ∧ x.builtins = m :=
  ⟨_, execGasFrom_ok D m c h, rfl, hc, rfl⟩

/-- An executor can be made, and before a schedule is chosen it charges by the dummy. -/
theorem c86_new (D : Decoder) : ∃ x, newExecGas D = .ok x ∧ x.loaded = false ∧
    (∀ s f, Required s f → Promised .dummy s f (x.host.costs s f).toNat) ∧ x.builtins = testSchedule := by
  obtain ⟨m, c, hm, hc, hp⟩ := c86_accepted D .dummy
  have hm : testSchedule = m := Option.some.inj hm
  rw [newExecGas, hm]
  exact new_spec D m c hc (fun c => ∀ s f, Required s f → Promised .dummy s f (c s f).toNat) hp

/-- The schedules that the model of scenarios takes as given can all be loaded: API functions cost there what the kind promises. -/
theorem c86_loads (D : Decoder) (k : GasKind) : ∃ g, loadKind D k = some g ∧
    (∀ a, Promised k (costName a).1 (costName a).2 (g.api a).toNat) ∧
    Promised k .base "StorePerByte" g.storePerByte.toNat ∧ Promised k .base "ReleasePerByte" g.releasePerByte.toNat ∧
    Promised k .base "DataCopyPerByte" g.dataCopyPerByte.toNat ∧ Promised k .base "PersistPerByte" g.persistPerByte.toNat ∧
    Promised k .base "CompilePerByte" g.compilePerByte.toNat ∧ Promised k .base "AoTPreparePerByte" g.aotPreparePerByte.toNat ∧
    Promised k .base "GetCode" g.getCode.toNat := by
  obtain ⟨m, c, hm, hc, hp⟩ := c86_accepted D k
  refine ⟨c.schedule, by simp [loadKind, hm, hc], fun a => hp _ _ (c43_used a), ?_⟩
  and_intros <;> exact hp _ _ (by simp [Required, Section.fields, baseFields])

/-- The versions 2 and 3 promise the same costs: nothing that runs on the virtual machine can tell them apart. -/
theorem c86_same (s : Section) (f : String) (n : Nat) : Promised .v2 s f n ↔ Promised .v3 s f n := by
  have h : ∃ l, (s.key, l) ∈ scheduleV2 ∧ (s.key, l) ∈ scheduleV3 := by
    cases s
    · exact ⟨v2Base, by simp [scheduleV2, Section.key], by rw [show v2Base = v3Base from rfl]; simp [scheduleV3, Section.key]⟩
    · exact ⟨v2Api, by simp [scheduleV2, Section.key], by rw [show v2Api = v3Api from rfl]; simp [scheduleV3, Section.key]⟩
    · exact ⟨v2BigInt, by simp [scheduleV2, Section.key], by rw [show v2BigInt = v3BigInt from rfl]; simp [scheduleV3, Section.key]⟩
    · exact ⟨v2Eth, by simp [scheduleV2, Section.key], by rw [show v2Eth = v3Eth from rfl]; simp [scheduleV3, Section.key]⟩
    · exact ⟨v2Crypto, by simp [scheduleV2, Section.key], by rw [show v2Crypto = v3Crypto from rfl]; simp [scheduleV3, Section.key]⟩
    · exact ⟨v2Opcode, by simp [scheduleV2, Section.key], by rw [show v2Opcode = v3Opcode by decide +kernel]; simp [scheduleV3, Section.key]⟩
  obtain ⟨l, h2, h3⟩ := h
  constructor
  · intro h
    cases h with
    | second h =>
      obtain ⟨l', hl, hn⟩ := h
      have := nodup_fst _ goodV2.sections _ _ _ hl h2
      subst this
      exact .third ⟨_, h3, hn⟩
  · intro h
    cases h with
    | third h =>
      obtain ⟨l', hl, hn⟩ := h
      have := nodup_fst _ goodV3.sections _ _ _ hl h3
      subst this
      exact .second ⟨_, h2, hn⟩

theorem test_builtin : ∃ t, testSchedule.get? "BuiltInCost" = some t ∧ t.get? "ESDTTransfer" = some 1 := by
  refine ⟨fill builtInFilled fun _ => 1, ?_, get_fill _ _ _ (by decide +kernel)⟩
  unfold testSchedule makeGasMap
  simp only [List.foldl_cons, List.foldl_nil, AMap.get?_insert]
  simp

/-- The built-in functions keep the costs that they were made with: a scenario that chooses version 3 pays 1 for a transfer of tokens,
although the text says 250000. -/
theorem c86_builtin_neg : ¬ ∀ (D : Decoder) (x y : ExecGas) (t : AMap String UInt64) (v : UInt64), newExecGas D = .ok x →
    chooseSchedule D .v3 x = some y → y.builtins.get? "BuiltInCost" = some t → t.get? "ESDTTransfer" = some v →
    InText scheduleV3 "BuiltInCost" "ESDTTransfer" v.toNat := by
  intro h
  let D : Decoder := ⟨fun _ _ => false, fun _ => []⟩
  obtain ⟨x, hx, hl, -, hb⟩ := c86_new D
  obtain ⟨m, c, hm, hc, -⟩ := c86_accepted D .v3
  obtain ⟨t, ht, hv⟩ := test_builtin
  have h1 : InText scheduleV3 "BuiltInCost" "ESDTTransfer" 1 :=
    h D x { x with loaded := true, host := gasScheduleChange D m x.host } t 1 hx (by simp [chooseSchedule, hl, hm]) (by rw [hb]; exact ht) hv
  have h2 : InText scheduleV3 "BuiltInCost" "ESDTTransfer" 250000 := ⟨v3BuiltIn, .head _, by simp [v3BuiltIn]⟩
  exact absurd (inText_unique goodV3 h1 h2) (by decide)

/-! ### Concrete costs -/

example : Promised .default .api "StorageStore" 250000 ∧ Promised .v1 .base "GetCode" 100000 ∧ Promised .v3 .base "GetCode" 1000000 :=
  ⟨.newest ⟨v3Api, by simp [scheduleV3, Section.key], by simp [v3Api]⟩, .first ⟨v1Base, by simp [scheduleV1, Section.key], by simp [v1Base]⟩,
    .third ⟨v3Base, by simp [scheduleV3, Section.key], by simp [v3Base]⟩⟩
example (D : Decoder) : ∃ x, newExecGas D = .ok x ∧ x.loaded = false := by
  obtain ⟨x, h, hl, _⟩ := c86_new D
  exact ⟨x, h, hl⟩
example : ∃ m, loadSchedule [("A", .table [("B", .int 7), ("C", .int 8)]), ("D", .table [])] = some m ∧
    (m.get? "A").bind (fun c => c.get? "C") = some 8 := ⟨_, rfl, by decide +kernel⟩
example : loadSchedule [("A", .table [("B", .int 7), ("C", .other)])] = none := rfl

end Arwen.Props
