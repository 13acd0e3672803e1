import Verif.Spec.Config
/-!
C43: a gas schedule is accepted only if every required cost is present and non-zero; otherwise the previous one stays in force.
-/
namespace Arwen.Props
open Arwen.Config Arwen.Spec

theorem cut_toNat (s : Section) (v : UInt64) : (s.cut v).toNat = charged s v := by
  cases s <;> first
    | rfl
    | (show v.toUInt32.toUInt64.toNat = _
       simp [charged])

/-- a value that is decoded is given -/
theorem foundFor_given (D : Decoder) (m : ScheduleMap) (s : Section) (field : String) (v : UInt64)
    (h : foundFor D ((m.get? s.key).getD AMap.empty) field = some v) : Given D m s field v := by
  cases ht : m.get? s.key with
  | none =>
    rw [ht] at h
    have h : (match (D.order AMap.empty).find? fun k => D.sameFold k field with
      | some k => AMap.empty.get? k
      | none => none) = some v := h
    split at h <;> cases h
  | some t =>
    rw [ht] at h
    have h : foundFor D t field = some v := h
    refine ⟨t, ht, ?_⟩
    unfold foundFor at h
    cases hf : t.get? field with
    | some w =>
      rw [hf] at h
      exact .inl h
    | none =>
      rw [hf] at h
      dsimp only at h
      cases hk : (D.order t).find? fun k => D.sameFold k field with
      | none =>
        rw [hk] at h
        cases h
      | some k =>
        rw [hk] at h
        exact .inr ⟨rfl, k, List.find?_some (p := fun k => D.sameFold k field) hk, h⟩

theorem create_ok (D : Decoder) (m : ScheduleMap) (c : GasCost) :
    createGasConfig D m = .ok c ↔ c = decodeField D m ∧ ∀ s f, Required s f → decodeField D m s f ≠ 0 := by
  unfold createGasConfig
  dsimp only
  generalize hq : List.findSome? _ _ = q
  cases q with
  | some field =>
    refine ⟨fun h => (by cases h), fun h => ?_⟩
    obtain ⟨s, _, hs⟩ := List.exists_of_findSome?_eq_some hq
    have h1 := List.mem_of_find?_eq_some hs
    have h2 := List.find?_some hs
    exact absurd (eq_of_beq h2) (h.2 s field h1)
  | none =>
    have hall : ∀ s f, Required s f → decodeField D m s f ≠ 0 := by
      intro s f hf h0
      rw [List.findSome?_eq_none_iff] at hq
      have hs := hq s (by cases s <;> decide)
      have := List.find?_eq_none.mp hs f hf
      exact this (by rw [h0]; rfl)
    constructor
    · intro h
      cases h
      exact ⟨rfl, hall⟩
    · rintro ⟨rfl, _⟩
      rfl

/-- **C43.** If a schedule is accepted, then every required cost is given in it with a non-zero value, and what is charged is that
value (modulo 2^32 for opcodes) and not zero. -/
theorem c43_accepted (D : Decoder) (m : ScheduleMap) (c : GasCost) (h : createGasConfig D m = .ok c) (s : Section) (f : String)
    (hf : Required s f) : ∃ v, Given D m s f v ∧ v ≠ 0 ∧ (c s f).toNat = charged s v ∧ c s f ≠ 0 := by
  obtain ⟨rfl, hc⟩ := (create_ok D m c).mp h
  have h0 := hc s f hf
  unfold decodeField at h0 ⊢
  cases hv : foundFor D ((m.get? s.key).getD AMap.empty) f with
  | none =>
    rw [hv] at h0
    exact absurd rfl h0
  | some v =>
    rw [hv] at h0
    refine ⟨v, foundFor_given D m s f v hv, ?_, cut_toNat s v, h0⟩
    rintro rfl
    apply h0
    cases s <;> rfl

/-- **C43.** A schedule without some required cost is rejected. -/
theorem c43_missing (D : Decoder) (m : ScheduleMap) (s : Section) (f : String) (hf : Required s f) (hm : Missing D m s f) :
    ∃ e, createGasConfig D m = .error e := by
  cases h : createGasConfig D m with
  | error e => exact ⟨e, rfl⟩
  | ok c =>
    obtain ⟨v, hv, _⟩ := c43_accepted D m c h s f hf
    exact absurd hv (hm v)

/-- **C43.** A schedule with a zero under the name of some required cost is rejected. -/
theorem c43_zero (D : Decoder) (m : ScheduleMap) (s : Section) (f : String) (t : AMap String UInt64) (hf : Required s f)
    (ht : m.get? s.key = some t) (h0 : t.get? f = some 0) : ∃ e, createGasConfig D m = .error e := by
  cases h : createGasConfig D m with
  | error e => exact ⟨e, rfl⟩
  | ok c =>
    obtain ⟨v, ⟨t', ht', hv⟩, hv0, _⟩ := c43_accepted D m c h s f hf
    rw [ht] at ht'
    cases ht'
    rcases hv with hv | ⟨hv, _⟩
    · rw [h0] at hv
      cases hv
      exact absurd rfl hv0
    · rw [h0] at hv
      cases hv

/-- **C43.** A schedule that gives every required cost under its own name, with a value that is not charged as zero, is accepted with
exactly these costs, whatever else it contains. -/
theorem c43_complete (D : Decoder) (m : ScheduleMap)
    (h : ∀ s f, Required s f → ∃ t v, m.get? s.key = some t ∧ t.get? f = some v ∧ charged s v ≠ 0) :
    ∃ c, createGasConfig D m = .ok c ∧
      ∀ s f t v, Required s f → m.get? s.key = some t → t.get? f = some v → (c s f).toNat = charged s v := by
  have hd : ∀ s f t v, m.get? s.key = some t → t.get? f = some v → decodeField D m s f = s.cut v := by
    intro s f t v ht hv
    have e : foundFor D ((m.get? s.key).getD AMap.empty) f = some v := by
      rw [ht]
      show foundFor D t f = some v
      rw [foundFor, hv]
    rw [decodeField, e]
  refine ⟨decodeField D m, (create_ok D m _).mpr ⟨rfl, ?_⟩, ?_⟩
  · intro s f hf
    obtain ⟨t, v, ht, hv, h0⟩ := h s f hf
    rw [hd s f t v ht hv]
    intro hz
    apply h0
    rw [← cut_toNat, hz]
    rfl
  · intro s f t v _ ht hv
    rw [hd s f t v ht hv, cut_toNat]

/-- **C43.** A host is created only with a schedule that gives all costs, and charges by it. -/
theorem c43_new (D : Decoder) (m : ScheduleMap) (h : HostGas) (e : newHost D m = .ok h) :
    createGasConfig D m = .ok h.costs ∧ h.wasmer = opcodeCosts h.costs := by
  unfold newHost at e
  cases hc : createGasConfig D m with
  | error x =>
    rw [hc] at e
    cases e
  | ok c =>
    rw [hc] at e
    cases e
    exact ⟨rfl, rfl⟩

/-- **C43.** A rejected schedule changes neither the costs that the host charges nor those that Wasmer charges. -/
theorem c43_kept (D : Decoder) (m : ScheduleMap) (h : HostGas) (e : String) (he : createGasConfig D m = .error e) :
    (gasScheduleChange D m h).costs = h.costs ∧ (gasScheduleChange D m h).wasmer = h.wasmer := by
  unfold gasScheduleChange
  dsimp only
  rw [he]
  exact ⟨rfl, rfl⟩

/-- **C43.** An accepted schedule takes the place of the old one everywhere. -/
theorem c43_applied (D : Decoder) (m : ScheduleMap) (h : HostGas) (c : GasCost) (hc : createGasConfig D m = .ok c) :
    gasScheduleChange D m h = { stored := m, costs := c, wasmer := opcodeCosts c } := by
  unfold gasScheduleChange setGasSchedule
  dsimp only
  rw [hc]

/-- the array given to Wasmer has the cost of every opcode at its number -/
theorem c43_opcodes (c : GasCost) (n : Nat) (hn : n < opcodes.length) : (opcodeCosts c)[n]? = some (c .opcode opcodes[n]) := by
  rw [opcodeCosts, List.getElem?_map, List.getElem?_eq_getElem hn]
  rfl

theorem opcodes_length : opcodes.length = 448 := by decide +kernel

/-- the costs by which the rest of the model charges are required ones -/
theorem c43_used (a : ApiCost) : Required (costName a).1 (costName a).2 := by
  unfold Required
  cases a <;> decide +kernel

/-- all the costs of API functions -/
def allCosts : List ApiCost := [
   .getSCAddress, .getOwnerAddress, .isSmartContract, .getShardOfAddress, .getExternalBalance, .getBlockHash,
   .transferValue, .getArgument, .getFunction, .getNumArguments, .storageStore, .storageLoad, .getCaller,
   .getCallValue, .log, .finish, .signalError, .getBlockTimeStamp, .getGasLeft, .int64GetArgument,
   .int64StorageStore, .int64StorageLoad, .int64Finish, .getStateRootHash, .getBlockNonce, .getBlockEpoch,
   .getBlockRound, .getBlockRandomSeed, .executeOnSameContext, .executeOnDestContext, .delegateExecution,
   .executeReadOnly, .asyncCallStep, .asyncCallbackGasLock, .createContract, .getReturnData, .getNumReturnData,
   .getReturnDataSize, .bigIntNew, .bigIntUnsignedByteLength, .bigIntSignedByteLength, .bigIntGetUnsignedBytes,
   .bigIntGetSignedBytes, .bigIntSetUnsignedBytes, .bigIntSetSignedBytes, .bigIntIsInt64, .bigIntGetInt64,
   .bigIntSetInt64, .bigIntAdd, .bigIntSub, .bigIntMul, .bigIntTDiv, .bigIntTMod, .bigIntEDiv, .bigIntEMod,
   .bigIntAbs, .bigIntNeg, .bigIntSign, .bigIntCmp, .bigIntNot, .bigIntAnd, .bigIntOr, .bigIntXor, .bigIntShr,
   .bigIntShl, .bigIntFinishUnsigned, .bigIntFinishSigned, .bigIntStorageLoadUnsigned,
   .bigIntStorageStoreUnsigned, .bigIntGetUnsignedArgument, .bigIntGetSignedArgument, .bigIntGetCallValue,
   .bigIntGetExternalBalance, .sha256, .keccak256, .ripemd160, .verifyBLS, .verifyEd25519, .verifySecp256k1]

theorem mem_allCosts (a : ApiCost) : a ∈ allCosts := by cases a <;> decide

/-- **C43.** No two costs are read from the same entry of a schedule. -/
theorem c43_apart (a b : ApiCost) (h : costName a = costName b) : a = b := by
  have hn : (allCosts.map costName).Nodup := by decide +kernel
  have key : ∀ (l : List ApiCost), (l.map costName).Nodup → a ∈ l → b ∈ l → a = b := by
    intro l
    induction l with
    | nil => intro _ h1; cases h1
    | cons x l ih =>
      intro h1 h2 h3
      rw [List.map_cons, List.nodup_cons] at h1
      rcases List.mem_cons.mp h2 with h4 | h4
      · rcases List.mem_cons.mp h3 with h5 | h5
        · rw [h4, h5]
        · exact absurd (h4 ▸ h ▸ List.mem_map_of_mem h5) h1.1
      · rcases List.mem_cons.mp h3 with h5 | h5
        · exact absurd (h5 ▸ h ▸ List.mem_map_of_mem h4) h1.1
        · exact ih h1.2 h4 h5
  exact key allCosts hn (mem_allCosts a) (mem_allCosts b)

/-- **C43.** The prices by which the rest of the model charges are those that an accepted schedule gives under their names. -/
theorem c43_prices (D : Decoder) (m : ScheduleMap) (c : GasCost) (h : createGasConfig D m = .ok c) :
    Given D m .base "StorePerByte" c.schedule.storePerByte ∧ Given D m .base "ReleasePerByte" c.schedule.releasePerByte ∧
    Given D m .base "DataCopyPerByte" c.schedule.dataCopyPerByte ∧ Given D m .base "PersistPerByte" c.schedule.persistPerByte ∧
    Given D m .base "CompilePerByte" c.schedule.compilePerByte ∧ Given D m .base "AoTPreparePerByte" c.schedule.aotPreparePerByte ∧
    Given D m .base "GetCode" c.schedule.getCode ∧ ∀ a, Given D m (costName a).1 (costName a).2 (c.schedule.api a) := by
  have key : ∀ s f, Required s f → s ≠ .opcode → Given D m s f (c s f) := by
    intro s f hf hs
    obtain ⟨v, h1, _, h3, _⟩ := c43_accepted D m c h s f hf
    unfold charged at h3
    rw [if_neg hs] at h3
    rw [UInt64.toNat_inj.mp h3]
    exact h1
  refine ⟨key _ _ ?_ ?_, key _ _ ?_ ?_, key _ _ ?_ ?_, key _ _ ?_ ?_, key _ _ ?_ ?_, key _ _ ?_ ?_, key _ _ ?_ ?_,
    fun a => key _ _ (c43_used a) (by cases a <;> decide)⟩
  all_goals first | (unfold Required; decide +kernel) | decide

/-- **C43.** So after any history of schedule changes on a host, every API function has a non-zero cost. -/
theorem c43_priced (D : Decoder) (first : ScheduleMap) (changes : List ScheduleMap) (h0 : HostGas) (h : newHost D first = .ok h0)
    (a : ApiCost) : ((changes.foldl (fun s m => gasScheduleChange D m s) h0).costs.schedule.api a) ≠ 0 := by
  have key : ∀ (l : List ScheduleMap) (s : HostGas), (∃ m, createGasConfig D m = .ok s.costs) →
      ∃ m, createGasConfig D m = .ok (l.foldl (fun s m => gasScheduleChange D m s) s).costs := by
    intro l
    induction l with
    | nil => exact fun s hs => hs
    | cons m l ih =>
      intro s hs
      apply ih
      dsimp only
      cases hc : createGasConfig D m with
      | error e =>
        rw [(c43_kept D m s e hc).1]
        exact hs
      | ok c =>
        rw [c43_applied D m s c hc]
        exact ⟨m, hc⟩
  obtain ⟨m, hm⟩ := key changes h0 ⟨first, (c43_new D first h0 h).1⟩
  obtain ⟨v, _, _, _, h0⟩ := c43_accepted D m _ hm _ _ (c43_used a)
  exact h0

/-! ### Where the code falls short -/

/-- **The host reports the rejected schedule as its current one.** -/
theorem c43_reported_neg (D : Decoder) (m : ScheduleMap) (h : HostGas) (e : String) (he : createGasConfig D m = .error e) :
    getGasScheduleMap (gasScheduleChange D m h) = m := by
  unfold gasScheduleChange getGasScheduleMap
  dsimp only
  rw [he]

theorem get_fold (g : String → UInt64) (l : List String) (m : AMap String UInt64) (k : String) :
    (l.foldl (fun m n => m.insert n (g n)) m).get? k = if k ∈ l then some (g k) else m.get? k := by
  induction l generalizing m with
  | nil => simp
  | cons n l ih =>
    rw [List.foldl_cons, ih, AMap.get?_insert]
    by_cases h1 : k ∈ l
    · rw [if_pos h1, if_pos (.tail _ h1)]
    · rw [if_neg h1]
      by_cases h2 : k = n
      · subst h2
        simp
      · have h3 : ¬ k ∈ n :: l := fun h => by
          rcases List.mem_cons.mp h with h | h
          · exact h2 h
          · exact h1 h
        rw [if_neg h3, if_neg (by first | exact h2 | exact fun h => h2 h.symm)]

theorem get_fill (names : List String) (g : String → UInt64) (k : String) (h : k ∈ names) : (fill names g).get? k = some (g k) := by
  rw [fill, get_fold, if_pos h]

/-- the sections that `MakeGasMap` fills -/
def filledSection (value lock : UInt64) : Section → AMap String UInt64
  | .base => fill baseFilled fun _ => value
  | .api => fill apiFields fun n => if n = "AsyncCallbackGasLock" then lock else value
  | .bigInt => fill bigIntFields fun _ => value
  | .eth => fill ethFields fun _ => value
  | .crypto => fill cryptoFields fun _ => value
  | .opcode => fill opcodeFields fun _ => value

theorem make_section (value lock : UInt64) (s : Section) :
    (makeGasMap value lock).get? s.key = some (filledSection value lock s) := by
  unfold makeGasMap
  simp only [List.foldl_cons, List.foldl_nil, AMap.get?_insert]
  cases s <;> simp [Section.key, filledSection]

/-- what `MakeGasMap` gives for a required cost -/
theorem make_gives (value lock : UInt64) (s : Section) (f : String) (hf : Required s f) :
    ∃ t, (makeGasMap value lock).get? s.key = some t ∧
      t.get? f = some (if s = .api ∧ f = "AsyncCallbackGasLock" then lock else value) := by
  refine ⟨_, make_section value lock s, ?_⟩
  cases s
  case base =>
    have : ∀ f ∈ baseFields, f ∈ baseFilled := by decide +kernel
    rw [if_neg (fun h => by cases h.1)]
    exact get_fill _ _ _ (this f hf)
  case api =>
    show (fill apiFields _).get? f = _
    rw [get_fill apiFields _ _ hf]
    by_cases h : f = "AsyncCallbackGasLock"
    · rw [if_pos h, if_pos ⟨rfl, h⟩]
    · rw [if_neg h, if_neg (fun x => h x.2)]
  case bigInt =>
    rw [if_neg (fun h => by cases h.1)]
    exact get_fill bigIntFields _ _ hf
  case eth =>
    rw [if_neg (fun h => by cases h.1)]
    exact get_fill ethFields _ _ hf
  case crypto =>
    rw [if_neg (fun h => by cases h.1)]
    exact get_fill cryptoFields _ _ hf
  case opcode =>
    rw [if_neg (fun h => by cases h.1)]
    exact get_fill opcodeFields _ _ hf

/-- **An opcode cost of 2^32 + 1 is charged as 1.** -/
theorem c43_wide_neg (D : Decoder) : ∃ (m : ScheduleMap) (t : AMap String UInt64) (c : GasCost),
    m.get? "WASMOpcodeCost" = some t ∧ t.get? "I64Add" = some 4294967297 ∧ createGasConfig D m = .ok c ∧ c .opcode "I64Add" = 1 := by
  obtain ⟨c, hc, hv⟩ := c43_complete D (makeGasMap 4294967297 5) (by
    intro s f hf
    obtain ⟨t, ht, h⟩ := make_gives 4294967297 5 s f hf
    refine ⟨t, _, ht, h, ?_⟩
    split
    · rename_i h
      rw [h.1]
      decide
    · cases s <;> decide)
  have hr : Required .opcode "I64Add" := by
    unfold Required
    decide +kernel
  obtain ⟨t, ht, h⟩ := make_gives 4294967297 5 .opcode "I64Add" hr
  refine ⟨_, t, c, ht, h, hc, ?_⟩
  rw [← UInt64.toNat_inj, hv .opcode "I64Add" t _ hr ht h]
  decide

/-- **The cost charged may depend on the iteration order** if a schedule spells a name twice in wrong case. -/
theorem c43_case_neg : ∃ (fold : String → String → Bool) (o1 o2 : AMap String UInt64 → List String) (t : AMap String UInt64),
    (∀ m k, k ∈ o1 m ↔ ∃ v, m.get? k = some v) ∧ (∀ m k, k ∈ o2 m ↔ ∃ v, m.get? k = some v) ∧
    foundFor ⟨fold, o1⟩ t "GetCode" = some 1 ∧ foundFor ⟨fold, o2⟩ t "GetCode" = some 2 := by
  refine ⟨fun a b => a.toList.map Char.toLower == b.toList.map Char.toLower, fun m => m.keys, fun m => m.keys.reverse,
    (AMap.empty.insert "getcode" 1).insert "GETCODE" 2, ?_, ?_, by decide +kernel, by decide +kernel⟩
  · intro m k
    cases h : m.get? k with
    | none => simp [(AMap.get?_none_iff m k).mp h]
    | some v =>
      refine ⟨fun _ => ⟨v, rfl⟩, fun _ => Decidable.byContradiction fun hk => ?_⟩
      rw [(AMap.get?_none_iff m k).mpr hk] at h
      cases h
  · intro m k
    rw [List.mem_reverse]
    cases h : m.get? k with
    | none => simp [(AMap.get?_none_iff m k).mp h]
    | some v =>
      refine ⟨fun _ => ⟨v, rfl⟩, fun _ => Decidable.byContradiction fun hk => ?_⟩
      rw [(AMap.get?_none_iff m k).mpr hk] at h
      cases h

/-! ### Concrete schedules -/

/-- the schedules of the tests are accepted, with the values put into them -/
theorem c43_make (D : Decoder) (value lock : UInt64) (h1 : value.toNat % 2 ^ 32 ≠ 0) (h2 : lock ≠ 0) :
    ∃ c, createGasConfig D (makeGasMap value lock) = .ok c ∧ c .api "AsyncCallbackGasLock" = lock ∧ c .base "GetCode" = value := by
  have hv0 : value.toNat ≠ 0 := fun h => h1 (by rw [h])
  have hl0 : lock.toNat ≠ 0 := fun h => h2 (UInt64.toNat_inj.mp h)
  obtain ⟨c, hc, hv⟩ := c43_complete D (makeGasMap value lock) (by
    intro s f hf
    obtain ⟨t, ht, h⟩ := make_gives value lock s f hf
    refine ⟨t, _, ht, h, ?_⟩
    split
    · rename_i h
      rw [h.1]
      exact hl0
    · cases s <;> assumption)
  refine ⟨c, hc, ?_, ?_⟩
  · have hr : Required .api "AsyncCallbackGasLock" := by unfold Required; decide +kernel
    obtain ⟨t, ht, h⟩ := make_gives value lock .api _ hr
    rw [← UInt64.toNat_inj, hv .api _ t _ hr ht h]
    simp [charged]
  · have hr : Required .base "GetCode" := by unfold Required; decide +kernel
    obtain ⟨t, ht, h⟩ := make_gives value lock .base _ hr
    rw [← UInt64.toNat_inj, hv .base _ t _ hr ht h]
    simp [charged]

/-- and removing one cost from them makes them unacceptable -/
example (D : Decoder) (hD : ∀ k, D.sameFold k "SHA256" = true → k = "SHA256") (t : AMap String UInt64)
    (h : t.get? "SHA256" = none) : ∃ e, createGasConfig D ((makeGasMap 1 1).insert "CryptoAPICost" t) = .error e := by
  apply c43_missing D _ .crypto "SHA256" (by unfold Required; decide +kernel)
  rintro v ⟨t', ht', hv⟩
  have ht' : ((makeGasMap 1 1).insert "CryptoAPICost" t).get? "CryptoAPICost" = some t' := ht'
  rw [AMap.get?_insert] at ht'
  simp at ht'
  subst ht'
  rcases hv with hv | ⟨_, k, hk, hv⟩
  · rw [h] at hv
    cases hv
  · rw [hD k hk, h] at hv
    cases hv

end Arwen.Props
