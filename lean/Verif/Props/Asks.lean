import Verif.Props.Requests
import Verif.Props.Deploy
/-
C64 (what contracts hand out), continued: requests for calls, deployments and upgrades.
-/
namespace Arwen.Props
open Arwen Arwen.Eei Arwen.Spec
variable {χ A : Type} {E : Env χ A} {ex : Executor χ A}

/-! ### Asynchronous calls -/

theorem gasLeft_paid {s u : St χ A} {i g : Nat} (hi : s.rt.instance_ = some i) (hg : s.met.cur.gasForExecution.toNat < 2 ^ 63) (hu : OnlyPaid s u i g) :
    u.gasLeft.toNat = s.gasLeft.toNat - g := by
  have h1 : u.pointsUsed = (u.insts i).points := by unfold St.pointsUsed; rw [hu.rt, hi]
  have h2 : s.pointsUsed = (s.insts i).points := by unfold St.pointsUsed; rw [hi]
  rw [gasLeft_toNat, gasLeft_toNat, hu.met, h1, h2, hu.points]
  omega

theorem points_paid {s u : St χ A} {i g : Nat} (hi : s.rt.instance_ = some i) (hg : s.met.cur.gasForExecution.toNat < 2 ^ 63) (hu : OnlyPaid s u i g)
    (h : g < s.gasLeft.toNat) : (u.insts i).points.toNat = (s.insts i).points.toNat + g := by
  have h2 : s.pointsUsed = (s.insts i).points := by unfold St.pointsUsed; rw [hi]
  rw [gasLeft_toNat, h2] at h
  rw [hu.points]
  omega

theorem registered_of {s u : St χ A} {i price reserved : Nat} (hi : s.rt.instance_ = some i) (hg : s.met.cur.gasForExecution.toNat < 2 ^ 63)
    (hu : OnlyPaid s u i (price + reserved)) (h : price + reserved < s.gasLeft.toNat) (dest : Addr) (data v : Bytes) (lock : UInt64)
    (hl : lock.toNat = reserved) : Registered s (registered u dest data v lock) i price dest data v reserved := by
  have hui : u.rt.instance_ = some i := by rw [hu.rt]; exact hi
  have hin : ∀ j, (registered u dest data v lock).insts j = if j = i then { u.insts j with bp := .asyncCall } else u.insts j := by
    intro j
    show (if u.rt.instance_ = some j then _ else _) = _
    rw [hui]
    by_cases hj : j = i
    · subst hj; rw [if_pos rfl, if_pos rfl]; rfl
    · rw [if_neg (fun h => hj (Option.some.inj h).symm), if_neg hj]; rfl
  refine ⟨?_, ⟨_, rfl, rfl, rfl, rfl, hl, ?_⟩, ?_, ?_, ?_⟩
  · generalize hz : (registered u dest data v lock).insts = z
    show ({ u with insts := (registered u dest data v lock).insts, rt := { u.rt with cur := { u.rt.cur with asyncCallInfo := _ } } } : St χ A) = _
    rw [hz]
    have := hu.rest
    show _ = ({ s with insts := z, rt := { s.rt with cur := { s.rt.cur with asyncCallInfo := some _ } } } : St χ A)
    rw [this]
  · show u.gasLeft.toNat = _
    rw [gasLeft_paid hi hg hu]; omega
  · intro j hj; rw [hin, if_neg hj]; exact hu.others j hj
  · rw [hin, if_pos rfl, hu.running]
  · rw [hin, if_pos rfl]
    show (u.insts i).points.toNat = _
    rw [points_paid hi hg hu h]; omega

/-- registering an asynchronous call, after the price has been paid -/
theorem register_end {s u : St χ A} {i price : Nat} (hi : s.rt.instance_ = some i) (hg : s.met.cur.gasForExecution.toNat < 2 ^ 63)
    (hu : OnlyPaid s u i price) (dest : Addr) (data v : Bytes) {needed : Bool} (hn : needed = true ↔ HasCallback s i ∨ s.flags.dynGasLock = false) :
    (price + (s.met.sched.api .asyncCallStep).toNat + reservation s needed < s.gasLeft.toNat →
      ∃ t, executeAsyncCall dest data v u = (.ok none, t) ∧
        Registered s t i (price + (s.met.sched.api .asyncCallStep).toNat) dest data v (reservation s needed)) ∧
    (s.gasLeft.toNat ≤ price + (s.met.sched.api .asyncCallStep).toNat + reservation s needed →
      ∃ t p, executeAsyncCall dest data v u = (.ok (some .notEnoughGas), t) ∧ OnlyPaid s t i p) := by
  have hui : u.rt.instance_ = some i := by rw [hu.rt]; exact hi
  have hmod : (u.insts i).mod = (s.insts i).mod := by rw [hu.running]
  have hfl : u.flags = s.flags := by rw [hu.rest]
  have hb : (((u.insts i).mod.fn callbackName).isSome || !u.flags.dynGasLock) = needed := by
    rw [Bool.eq_iff_iff, hn, Bool.or_eq_true, callback_needed, Bool.not_eq_true', hfl]
    unfold HasCallback
    rw [hmod]
  have hug : u.met.cur.gasForExecution.toNat < 2 ^ 63 := by rw [hu.met]; exact hg
  have hres : reservation u needed = reservation s needed := by unfold reservation; rw [hu.met, hu.rt, hfl]
  have hc := computeGasLocked_toNat u
  rw [executeAsyncCall_run hui]
  dsimp only
  rw [hb]
  have hgu := gasLeft_paid hi hg hu
  generalize hst : u.met.sched.api .asyncCallStep = step
  have hst' : s.met.sched.api .asyncCallStep = step := by rw [← hst, hu.met]
  rw [hst']
  have hp1 := hu.trans (OnlyPaid.spend hui step)
  have hg1 := gasLeft_paid hi hg hp1
  by_cases h2 : u.gasLeft ≤ step
  · rw [if_pos h2]
    rw [UInt64.le_iff_toNat_le] at h2
    exact ⟨fun h => by omega, fun _ => ⟨u, price, rfl, hu⟩⟩
  · rw [if_neg h2]
    rw [UInt64.le_iff_toNat_le] at h2
    cases needed with
    | true =>
      simp only [if_true]
      rw [hres] at hc
      have hp2 := hp1.trans (OnlyPaid.spend (s := u.spend step) (i := i) hui u.computeGasLocked)
      have hlt := s.gasLeft.toNat_lt
      by_cases h3 : (u.spend step).gasLeft ≤ u.computeGasLocked
      · rw [if_pos h3]
        rw [UInt64.le_iff_toNat_le] at h3
        exact ⟨fun h => by omega, fun _ => ⟨u.spend step, _, rfl, hp1⟩⟩
      · rw [if_neg h3]
        rw [UInt64.le_iff_toNat_le] at h3
        refine ⟨fun h => ⟨_, rfl, ?_⟩, fun h => by omega⟩
        have hl : u.computeGasLocked.toNat = reservation s true := by omega
        rw [hl] at hp2
        exact registered_of hi hg hp2 h _ _ _ _ hl
    | false =>
      have h0 : reservation s false = 0 := rfl
      simp only [Bool.false_eq_true, if_false]
      rw [h0]
      refine ⟨fun h => ⟨_, rfl, ?_⟩, fun h => by omega⟩
      exact registered_of (price := price + step.toNat) (reserved := 0) hi hg hp1 h _ _ _ _ rfl

section
variable {s : St χ A} {i : Nat} (hi : s.rt.instance_ = some i) (hm : (s.insts i).mem.length + 65537 < 2 ^ 31)
include hi

include hm in
/-- **C64**, `asyncCall`: the call is registered, to the address and with the value and the data in the memory, if there is enough gas for
two steps, the copied data and the reservation; otherwise the contract runs out of gas and nothing is registered. -/
theorem c64_async {destOff valueOff dataOff len : Int32} {dest v data : Bytes} (hl : dest.length = 32)
    (hdest : Holds (s.insts i).mem destOff dest) (hvl : v.length = 32) (hv : Holds (s.insts i).mem valueOff v)
    (hd : BytesAt (s.insts i).mem dataOff len data) (hg : s.met.cur.gasForExecution.toNat < 2 ^ 63)
    {needed : Bool} (hn : needed = true ↔ HasCallback s i ∨ s.flags.dynGasLock = false) {price : Nat}
    (hp : price = 2 * (s.met.sched.api .asyncCallStep).toNat + s.met.sched.dataCopyPerByte.toNat * data.length) :
    (price + reservation s needed < s.gasLeft.toNat →
      ∃ t, interp E ex (eei E (.asyncCall destOff valueOff dataOff len)) s = (.ok 0, t) ∧
        Registered s t i price dest data v (reservation s needed)) ∧
    (s.gasLeft.toNat ≤ price + reservation s needed →
      ∃ t p, interp E ex (eei E (.asyncCall destOff valueOff dataOff len)) s = (.ok 0, t.withBp .outOfGas) ∧ OnlyPaid s t i p) := by
  have hw : ∃ w, OnlyPaid s w i ((s.met.sched.api .asyncCallStep).toNat + s.met.sched.dataCopyPerByte.toNat * data.length) ∧
      interp E ex (eei E (.asyncCall destOff valueOff dataOff len)) s =
        interp E ex (.op (.executeAsyncCall dest data v) fun e =>
          match e with
          | none => .pure 0
          | some e => if e.isA .notEnoughGas then .op .outOfGas fun _ => .pure 0 else faultK e 0) w := by
    obtain ⟨u, hu, hr⟩ := interp_gas (E := E) (ex := ex) hi .asyncCallStep (loadK destOff 32 0 fun dest => loadK valueOff 32 0 fun v =>
      copyK (len64 len) <| loadK dataOff len 0 fun data => .op (.executeAsyncCall dest data v) fun e =>
      match e with
      | none => .pure 0
      | some e => if e.isA .notEnoughGas then .op .outOfGas fun _ => .pure 0 else faultK e 0)
    have hui : u.rt.instance_ = some i := by rw [hu.rt]; exact hi
    have hmu : (u.insts i).mem.length < 2 ^ 31 := by rw [hu.mem]; omega
    have hw : OnlyPaid u (u.spend (mulU64 u.met.sched.dataCopyPerByte (len64 len))) i (s.met.sched.dataCopyPerByte.toNat * data.length) := by
      refine (OnlyPaid.spend hui _).cast ?_
      rw [ofNat_len hd.len, len64_of (bytesAt_bound hd), hu.met]
      exact mul_price _ _ (by have := bytesAt_bound hd; omega)
    refine ⟨_, hu.trans hw, hr.trans ?_⟩
    rw [interp_loadK_holds hui hmu (by rw [hl]; rfl) (by rw [hu.mem]; exact hdest),
      interp_loadK_holds hui hmu (by rw [hvl]; rfl) (by rw [hu.mem]; exact hv)]
    refine (interp_useK E ex _ _ u hui).trans ?_
    rw [interp_loadK_holds (i := i) (by rw [hw.rt]; exact hui) (by rw [hw.mem]; exact hmu) hd.len (by rw [hw.mem, hu.mem]; exact hd.data)]
  obtain ⟨w, hw, hr⟩ := hw
  obtain ⟨h1, h2⟩ := register_end hi hg hw dest data v hn
  have e : price = (s.met.sched.api .asyncCallStep).toNat + s.met.sched.dataCopyPerByte.toNat * data.length + (s.met.sched.api .asyncCallStep).toNat := by
    rw [hp]; omega
  rw [e]
  refine ⟨fun h => ?_, fun h => ?_⟩
  · obtain ⟨t, ht, hR⟩ := h1 h
    exact ⟨t, hr.trans (interp_op_ok E ex (.executeAsyncCall dest data v) _ w t none ht), hR⟩
  · obtain ⟨t, p, ht, hR⟩ := h2 h
    refine ⟨t, p, hr.trans ((interp_op_ok E ex (.executeAsyncCall dest data v) _ w t (some .notEnoughGas) ht).trans ?_), hR⟩
    exact interp_op_ok E ex .outOfGas _ t (t.withBp .outOfGas) () (setBreakpoint_run t .outOfGas (i := i) (by rw [hR.rt]; exact hi))

omit hi in
theorem groupSet_insert (s : St χ A) (id : Bytes) (g : AsyncContext) :
    GroupSet s { s with rt := { s.rt with cur := { s.rt.cur with asyncContextInfo :=
      { s.rt.cur.asyncContextInfo with contexts := s.rt.cur.asyncContextInfo.contexts.insert id g } } } } id g := by
  refine ⟨rfl, rfl, fun j => ?_⟩
  show (s.rt.cur.asyncContextInfo.contexts.insert id g).get? j = _
  rw [AMap.get?_insert]
  by_cases h : id = j
  · rw [if_pos h, if_pos h.symm]
  · rw [if_neg h, if_neg fun e => h e.symm]

include hm in
/-- **C64**, `createAsyncCall`: the call, as laid out in the memory, is the last one of the group with the given name; the contract goes on. -/
theorem c64_group_call {idOff idLen destOff valueOff dataOff len sOff sLen eOff eLen : Int32} {gas : Int64} {id dest v data sf ef : Bytes}
    (hid : BytesAt (s.insts i).mem idOff idLen id) (hl : dest.length = 32) (hdest : Holds (s.insts i).mem destOff dest)
    (hvl : v.length = 32) (hv : Holds (s.insts i).mem valueOff v) (hd : BytesAt (s.insts i).mem dataOff len data)
    (hs : BytesAt (s.insts i).mem sOff sLen sf) (he : BytesAt (s.insts i).mem eOff eLen ef) :
    ∃ t, interp E ex (eei E (.createAsyncCall idOff idLen destOff valueOff dataOff len sOff sLen eOff eLen gas)) s = (.ok 0, t) ∧
      GroupSet s t id (withCall (s.rt.cur.asyncContextInfo.contexts.get? id)
        { destination := dest, data := data, valueBytes := v, successCallback := sf, errorCallback := ef, providedGas := gas.toUInt64 }) := by
  have hmu : (s.insts i).mem.length < 2 ^ 31 := by omega
  refine ⟨_, ?_, groupSet_insert s id _⟩
  show interp E ex (Eei.createAsyncCall idOff idLen destOff valueOff dataOff len sOff sLen eOff eLen gas) s = _
  unfold Eei.createAsyncCall
  rw [interp_loadK_holds hi hmu hid.len hid.data, interp_loadK_holds hi hmu (by rw [hl]; rfl) hdest,
    interp_loadK_holds hi hmu (by rw [hvl]; rfl) hv, interp_loadK_holds hi hmu hd.len hd.data, interp_loadK_holds hi hmu hs.len hs.data,
    interp_loadK_holds hi hmu he.len he.data]
  refine interp_op_ok E ex (.addAsyncContextCall _ _) _ s _ () ?_
  show (Res.ok (), addAsyncContextCall _ _ s) = _
  unfold addAsyncContextCall withCall
  dsimp only
  cases s.rt.cur.asyncContextInfo.contexts.get? id <;> rfl

include hm in
/-- **C64**, `setAsyncContextCallback`: the callback of the group; its calls stay. If there is no such group the execution fails. -/
theorem c64_group_callback {idOff idLen cbOff cbLen : Int32} {id cb : Bytes}
    (hid : BytesAt (s.insts i).mem idOff idLen id) (hcb : BytesAt (s.insts i).mem cbOff cbLen cb) :
    (∀ g, s.rt.cur.asyncContextInfo.contexts.get? id = some g →
      ∃ t, interp E ex (eei E (.setAsyncContextCallback idOff idLen cbOff cbLen)) s = (.ok 0, t) ∧
        GroupSet s t id { callback := cb, calls := g.calls }) ∧
    (s.rt.cur.asyncContextInfo.contexts.get? id = none →
      ∃ t, interp E ex (eei E (.setAsyncContextCallback idOff idLen cbOff cbLen)) s = (.ok (-1), t) ∧
        t.curBp = .executionFailed ∧ t.rt = s.rt) := by
  have hmu : (s.insts i).mem.length < 2 ^ 31 := by omega
  have h0 : interp E ex (eei E (.setAsyncContextCallback idOff idLen cbOff cbLen)) s =
      interp E ex (match s.rt.cur.asyncContextInfo.contexts.get? id with
        | none => faultK .asyncContextDoesNotExist (-1)
        | some _ => loadK cbOff cbLen (-1) fun cb => .op (.setAsyncContextCallback id cb) fun _ => .pure 0) s := by
    show interp E ex (Eei.setAsyncContextCallback idOff idLen cbOff cbLen) s = _
    unfold Eei.setAsyncContextCallback
    rw [interp_loadK_holds hi hmu hid.len hid.data, interp_ask]
    cases s.rt.cur.asyncContextInfo.contexts.get? id <;> rfl
  refine ⟨fun g hg => ?_, fun hg => ?_⟩
  · refine ⟨_, ?_, groupSet_insert s id _⟩
    rw [h0, hg]
    dsimp only
    rw [interp_loadK_holds hi hmu hcb.len hcb.data]
    refine interp_op_ok E ex (.setAsyncContextCallback _ _) _ s _ none ?_
    show (Res.ok (setAsyncContextCallback id cb s).1, (setAsyncContextCallback id cb s).2) = _
    unfold setAsyncContextCallback
    dsimp only
    rw [hg]
    rfl
  · refine ⟨s.faulted E .asyncContextDoesNotExist, ?_, curBp_faulted E _ _ hi, rfl⟩
    rw [h0, hg]
    exact interp_faultK E ex _ _ s hi

/-! ### Deployments -/

omit hi in
theorem createNew_inst {ex : Executor χ A} (hk : KeepsInst ex) {c : CreateInput} {u t : St χ A} {r : Except Err Addr}
    (h : createNewContract E ex c u = (.ok r, t)) : t.rt.instance_ = u.rt.instance_ := by
  cases createNewContract_stages h with
  | early m e => rfl
  | refused m e => rw [newAddress_rt _ _]
  | ran m addr s1 u' t q r h1 h2 h3 h4 h5 =>
    have h6 : u'.rt.instance_ = u.rt.instance_ := by
      rw [hk.dest _ _ _ _ h4]
      show s1.rt.instance_ = _
      have := newAddress_rt (E := E) c.vm.caller { u with met := m }
      rw [h1] at this
      rw [this]
    rcases h5 with ⟨e, _, _, rfl⟩ | ⟨_, _, rfl⟩
    · exact h6
    · rw [← h6]
      unfold increaseNonce getNonce
      dsimp only
      split
      · rfl
      · split <;> rfl

omit hi in
theorem interp_argsGasK {s : St χ A} {i : Nat} (hi : s.rt.instance_ = some i) (hm : (s.insts i).mem.length < 2 ^ 31) {num lenOff dataOff : Int32}
    {args : List Bytes} (h : ArgsAt (s.insts i).mem num lenOff dataOff args) (ret : Int64) (k : List Bytes → Eei.P χ A) :
    ∃ u, OnlyPaid s u i (s.met.sched.dataCopyPerByte.toNat * totalLength args) ∧
      interp E ex (argsGasK num lenOff dataOff ret k) s = interp E ex (k args) u := by
  unfold argsGasK
  rw [interp_argsEK_holds hi hm h]
  exact interp_copyK hi (totalLength_lt hm h) _

omit hi in
theorem wrote_of {s : St χ A} {i : Nat} {off : Int32} {data mem : Bytes} (hp : (s.insts i).points.toNat ≤ 2 ^ 63 - 1) (h : Holds mem off data)
    (h' : ∀ j, (j < off.toInt.toNat ∨ off.toInt.toNat + data.length ≤ j) → byteAt mem j = byteAt (s.insts i).mem j) :
    Wrote s (s.modInst i fun x => { x with mem := mem }) i 0 off data := by
  refine ⟨s, mem, ⟨rfl, fun _ _ => rfl, rfl, by omega⟩, ?_, h, h'⟩
  unfold St.modInst
  congr 1

omit hi in
/-- the deployment and its answer, after the arguments have been read -/
theorem create_end {u : St χ A} {i : Nat} (hi : u.rt.instance_ = some i) (hk : KeepsInst ex) (v : Nat) (args : List Bytes) (gas : Int64)
    (code md : Bytes) (off : Int32) {r : Res (Except Err Addr)} {t : St χ A}
    (h : createNewContract E ex (aDeployment u.rt.cur.scAddress v (callGas u gas) code md args) u = (r, t)) :
    (∀ q, r = .ok q → (∀ a, q = .ok a → (t.insts i).mem.length + 65537 < 2 ^ 31 ∧ a.length < 2 ^ 31 ∧ (t.insts i).points.toNat ≤ 2 ^ 63 - 1) →
      DeployAnswer E i off q t (interp E ex (createK v args gas code md off) u)) ∧
    (r = .panic → interp E ex (createK v args gas code md off) u = (.panic, t)) ∧
    (r = .oof → interp E ex (createK v args gas code md off) u = (.oof, t)) := by
  unfold createK
  rw [interp_ask]
  rw [interp_op]
  have e : createNewContract E ex (aDeployment u.rt.cur.scAddress v (callGas u gas) code md args) =
    runCmd E ex (.createContract { vm := { caller := u.rt.cur.scAddress, args := args, callValue := v, gasPrice := 0, gasProvided := u.boundGasLimit gas }, code := code, metadata := md }) := rfl
  rw [e] at h
  refine ⟨fun q hq hs => ?_, fun hq => ?_, fun hq => ?_⟩
  · subst hq
    have hti : t.rt.instance_ = some i := (createNew_inst hk (e ▸ h)).trans hi
    unfold M.bind
    rw [h]
    cases q with
    | error e => exact ⟨fun _ _ => rfl, (by intro a h; cases h), (by intro a h; cases h)⟩
    | ok a =>
      obtain ⟨hm, ha, hp⟩ := hs a rfl
      obtain ⟨mem, e', g1, g2, g3⟩ := interp_storeK (E := E) (ex := ex) hti hm off ha 1 (.pure 0)
      refine ⟨(by intro e h; cases h), ?_, ?_⟩
      · intro b hb hf
        cases hb
        have he := g3 hf
        subst he
        refine ⟨congrArg Prod.fst g1, ?_⟩
        have : (interp E ex (storeK off a 1 (.pure 0)) t).2 = (t.modInst i fun x => { x with mem := mem }) := congrArg Prod.snd g1
        show Wrote t (interp E ex (storeK off a 1 (.pure 0)) t).2 i 0 off a
        rw [this]
        exact wrote_of hp (g2 rfl).1 (g2 rfl).2
      · intro b hb
        cases hb
        show ((interp E ex (storeK off a 1 (.pure 0)) t).1 = _ ∧ Wrote t (interp E ex (storeK off a 1 (.pure 0)) t).2 i 0 off a) ∨
          ((interp E ex (storeK off a 1 (.pure 0)) t).1 = _ ∧ (interp E ex (storeK off a 1 (.pure 0)) t).2.curBp = _)
        rw [g1]
        cases e' with
        | none => exact .inl ⟨rfl, wrote_of hp (g2 rfl).1 (g2 rfl).2⟩
        | some e' => exact .inr ⟨rfl, curBp_faulted E _ e' hti⟩
  · subst hq
    show M.bind _ _ u = _
    unfold M.bind
    rw [h]
  · subst hq
    show M.bind _ _ u = _
    unfold M.bind
    rw [h]

include hm in
/-- **C64**, `createContract`: a deployment of the code, with the metadata, the value and the arguments in the memory, by the running contract and
with at most the gas left; the address of the new contract is put into the memory. -/
theorem c64_create (hk : KeepsInst ex) {gas : Int64} {valueOff codeOff metaOff len off num lenOff dataOff : Int32} {v : Nat} {code md : Bytes}
    {args : List Bytes} (hv : AmountAt (s.insts i).mem valueOff v) (hc : BytesAt (s.insts i).mem codeOff len code) (hml : md.length = 2)
    (hmd : Holds (s.insts i).mem metaOff md) (ha : ArgsAt (s.insts i).mem num lenOff dataOff args) :
    ∃ u, OnlyPaid s u i ((s.met.sched.api .createContract).toNat + s.met.sched.dataCopyPerByte.toNat * totalLength args) ∧
      Deploys E ex (eei E (.createContract gas valueOff codeOff metaOff len off num lenOff dataOff)) s u i off
        (aDeployment s.rt.cur.scAddress v (callGas u gas) code md args) := by
  obtain ⟨b, hbl, hbv, rfl⟩ := hv
  obtain ⟨u, hu, hr⟩ := interp_gas (E := E) (ex := ex) hi .createContract (loadK valueOff 32 1 fun v => loadK codeOff len 1 fun code =>
    loadK metaOff 2 1 fun md => argsGasK num lenOff dataOff 1 fun args => createK (bytesToNat v) args gas code md off)
  have hui : u.rt.instance_ = some i := by rw [hu.rt]; exact hi
  have hmu : (u.insts i).mem.length < 2 ^ 31 := by rw [hu.mem]; omega
  obtain ⟨w, hw, hr2⟩ := interp_argsGasK (E := E) (ex := ex) hui hmu (by rw [hu.mem]; exact ha) 1 fun args => createK (bytesToNat b) args gas code md off
  have hp : OnlyPaid s w i ((s.met.sched.api .createContract).toNat + s.met.sched.dataCopyPerByte.toNat * totalLength args) := by
    have := hu.trans hw; rw [hu.met] at this; exact this
  refine ⟨w, hp, fun r t h => ?_⟩
  have e : interp E ex (eei E (.createContract gas valueOff codeOff metaOff len off num lenOff dataOff)) s =
      interp E ex (createK (bytesToNat b) args gas code md off) w := by
    refine hr.trans ?_
    rw [interp_loadK_holds hui hmu (by rw [hbl]; rfl) (by rw [hu.mem]; exact hbv),
      interp_loadK_holds hui hmu hc.len (by rw [hu.mem]; exact hc.data), interp_loadK_holds hui hmu (by rw [hml]; rfl) (by rw [hu.mem]; exact hmd)]
    exact hr2
  rw [e]
  rw [← hp.rt] at h
  obtain ⟨h1, h2, _⟩ := create_end (by rw [hp.rt]; exact hi) hk (bytesToNat b) args gas code md off h
  exact ⟨h1, h2⟩

omit hi in
theorem getCode_seen (a : Addr) (s : St χ A) :
    (∀ c, codeOf E s a = some c → ∃ t, getCode E a s = (.ok c, t) ∧ CodeSeen s t a c) ∧
    (codeOf E s a = none → ∃ e t, getCode E a s = (.error e, t) ∧ t.rt = s.rt ∧ t.insts = s.insts ∧ t.world = s.world) := by
  have h1 := (getAcc_noted s.out a).1
  have h2 : (s.out.getAcc a).2.2 = { s.out with cur := { s.out.cur with accounts := (s.out.getAcc a).2.2.cur.accounts } } := by
    unfold OutCtx.getAcc; split <;> rfl
  have h3 : (s.out.getAcc a).2.1 = true → (noted s.out a).code = [] := by
    unfold OutCtx.getAcc noted
    split
    · intro h; cases h
    · rename_i h; rw [h]; intro _; rfl
  have h4 : ∀ b, noted (s.out.getAcc a).2.2 b = noted s.out b := heard_getAcc s.out a
  unfold getCode codeOf
  generalize s.out.getAcc a = q at h1 h2 h3 h4
  obtain ⟨acc, isNew, o⟩ := q
  dsimp only at h1 h2 h3 h4 ⊢
  subst h1
  have h5 : (!isNew && decide ((noted s.out a).code.length > 0)) = true ↔ (noted s.out a).code ≠ [] := by
    rw [Bool.and_eq_true, Bool.not_eq_true', decide_eq_true_eq, gt_iff_lt, List.length_pos_iff]
    refine ⟨fun h => h.2, fun h => ⟨?_, h⟩⟩
    cases isNew with
    | false => rfl
    | true => exact absurd (h3 rfl) h
  by_cases hc : (noted s.out a).code ≠ []
  · rw [if_pos (h5.mpr hc), if_pos hc]
    refine ⟨fun c h => ?_, fun h => by cases h⟩
    cases h
    refine ⟨_, rfl, ?_, fun b => ?_⟩
    · show ({ s with out := o } : St χ A) = { s with out := { s.out with cur := { s.out.cur with accounts := o.cur.accounts } } }
      rw [← h2]
    · show noted o b = _
      rw [h4]
      by_cases hb : b = a
      · subst hb; rw [if_pos rfl]
      · rw [if_neg hb]
  · rw [if_neg (fun h => hc (h5.mp h)), if_neg hc]
    cases hu : E.hook.userAccount s.world a with
    | error e => exact ⟨fun c h => (by cases h), fun _ => ⟨_, _, rfl, rfl, rfl, rfl⟩⟩
    | ok r =>
      cases r with
      | none => exact ⟨fun c h => (by cases h), fun _ => ⟨_, _, rfl, rfl, rfl, rfl⟩⟩
      | some ua =>
        dsimp only
        by_cases hl : ua.code = []
        · rw [if_pos hl, if_pos (by rw [hl]; rfl)]
          exact ⟨fun c h => (by cases h), fun _ => ⟨_, _, rfl, rfl, rfl, rfl⟩⟩
        · rw [if_neg hl, if_neg fun h => hl (List.eq_nil_of_length_eq_zero h)]
          refine ⟨fun c h => ?_, fun h => by cases h⟩
          cases h
          refine ⟨_, rfl, ?_, fun b => ?_⟩
          · show ({ s with out := o.setAcc a _ } : St χ A) = { s with out := { s.out with cur := { s.out.cur with accounts := (o.setAcc a _).cur.accounts } } }
            rw [h2]
            rfl
          · show noted (o.setAcc a _) b = _
            rw [heard_setAcc, h4]
            by_cases hb : a = b
            · subst hb; rw [if_pos rfl, if_pos rfl]
            · rw [if_neg hb, if_neg fun h => hb h.symm]

include hm in
/-- **C64**, `deployFromSourceContract`: as `createContract`, with the code of another contract; without such a contract the execution fails. -/
theorem c64_deploy_from (hk : KeepsInst ex) {gas : Int64} {valueOff srcOff metaOff off num lenOff dataOff : Int32} {v : Nat} {src md : Bytes}
    {args : List Bytes} (hv : AmountAt (s.insts i).mem valueOff v) (hsl : src.length = 32) (hsrc : Holds (s.insts i).mem srcOff src) (hml : md.length = 2)
    (hmd : Holds (s.insts i).mem metaOff md) (ha : ArgsAt (s.insts i).mem num lenOff dataOff args) :
    (∀ code, codeOf E s src = some code →
      ∃ u w, OnlyPaid s u i ((s.met.sched.api .createContract).toNat + s.met.sched.dataCopyPerByte.toNat * totalLength args) ∧ CodeSeen u w src code ∧
        Deploys E ex (eei E (.deployFromSourceContract gas valueOff srcOff metaOff off num lenOff dataOff)) s w i off
          (aDeployment s.rt.cur.scAddress v (callGas w gas) code md args)) ∧
    (codeOf E s src = none → ∃ t, interp E ex (eei E (.deployFromSourceContract gas valueOff srcOff metaOff off num lenOff dataOff)) s = (.ok 1, t) ∧
      t.curBp = .executionFailed ∧ t.world = s.world) := by
  obtain ⟨b, hbl, hbv, rfl⟩ := hv
  obtain ⟨u, hu, hr⟩ := interp_gas (E := E) (ex := ex) hi .createContract (loadK valueOff 32 1 fun v => loadK srcOff 32 1 fun src =>
    loadK metaOff 2 1 fun md => argsGasK num lenOff dataOff 1 fun args => .op (.getCode src) fun r =>
      match r with
      | .error e => faultK e 1
      | .ok code => createK (bytesToNat v) args gas code md off)
  have hui : u.rt.instance_ = some i := by rw [hu.rt]; exact hi
  have hmu : (u.insts i).mem.length < 2 ^ 31 := by rw [hu.mem]; omega
  obtain ⟨w, hw, hr2⟩ := interp_argsGasK (E := E) (ex := ex) hui hmu (by rw [hu.mem]; exact ha) 1 fun args => .op (.getCode src) fun r =>
      match r with
      | .error e => faultK e 1
      | .ok code => createK (bytesToNat b) args gas code md off
  have hp : OnlyPaid s w i ((s.met.sched.api .createContract).toNat + s.met.sched.dataCopyPerByte.toNat * totalLength args) := by
    have := hu.trans hw; rw [hu.met] at this; exact this
  have e : interp E ex (eei E (.deployFromSourceContract gas valueOff srcOff metaOff off num lenOff dataOff)) s =
      interp E ex (.op (.getCode src) fun r =>
      match r with
      | .error e => faultK e 1
      | .ok code => createK (bytesToNat b) args gas code md off) w := by
    refine hr.trans ?_
    rw [interp_loadK_holds hui hmu (by rw [hbl]; rfl) (by rw [hu.mem]; exact hbv),
      interp_loadK_holds hui hmu (by rw [hsl]; rfl) (by rw [hu.mem]; exact hsrc), interp_loadK_holds hui hmu (by rw [hml]; rfl) (by rw [hu.mem]; exact hmd)]
    exact hr2
  have hwi : w.rt.instance_ = some i := by rw [hp.rt]; exact hi
  obtain ⟨g1, g2⟩ := getCode_seen (E := E) src w
  have hco : codeOf E w src = codeOf E s src := by unfold codeOf; rw [paid_out hp, hp.world]
  rw [hco] at g1 g2
  refine ⟨fun code hcode => ?_, fun hcode => ?_⟩
  · obtain ⟨x, hx, hs⟩ := g1 code hcode
    have hxr : x.rt = s.rt := by rw [hs.rest]; exact hp.rt
    refine ⟨w, x, hp, hs, fun r t h => ?_⟩
    have e2 := e.trans (interp_op_ok E ex (.getCode src) _ w x (.ok code) (by show (Res.ok (getCode E src w).1, (getCode E src w).2) = _; rw [hx]; rfl))
    rw [e2]
    rw [← hxr] at h
    obtain ⟨h1, h2, _⟩ := create_end (by rw [hxr]; exact hi) hk (bytesToNat b) args gas code md off h
    exact ⟨h1, h2⟩
  · obtain ⟨er, x, hx, h1, h2, h3⟩ := g2 hcode
    have e2 := e.trans (interp_op_ok E ex (.getCode src) _ w x (.error er) (by show (Res.ok (getCode E src w).1, (getCode E src w).2) = _; rw [hx]; rfl))
    have hxi : x.rt.instance_ = some i := by rw [h1]; exact hwi
    exact ⟨x.faulted E er, e2.trans (interp_faultK E ex er 1 x hxi), curBp_faulted E _ _ hxi, h3.trans hp.world⟩

/-! ### Upgrades -/

omit hi in
theorem upgradeText_eq (code md : Bytes) (args : List Bytes) : buildCallData upgradeName (code :: md :: args) = upgradeText code md args := by
  rw [← callText_eq]
  have : upgradeName = "upgradeContract".toUTF8.data.toList := by decide +kernel
  rw [this]; rfl

omit hi in
theorem upgrade_end {s u w : St χ A} {i price : Nat} (hi : u.rt.instance_ = some i) (hg : u.met.cur.gasForExecution.toNat < 2 ^ 63)
    (hsm : 2 * (s.met.sched.api .asyncCallStep).toNat + (s.met.sched.api .asyncCallbackGasLock).toNat < 2 ^ 64)
    (hmet : u.met = s.met) (hu : OnlyPaid u w i price) (dest code md v : Bytes) (args : List Bytes) (gas : Int64) {needed : Bool}
    (hn : needed = true ↔ HasCallback u i ∨ u.flags.dynGasLock = false) {p : Eei.P χ A}
    (h : interp E ex p s = interp E ex (upgradeAsyncK dest code md v args gas) w) :
    Upgrades E ex p s u i price gas dest (upgradeText code md args) v (reservation u needed) := by
  have hwi : w.rt.instance_ = some i := by rw [hu.rt]; exact hi
  unfold upgradeAsyncK at h
  rw [interp_ask, upgradeText_eq] at h
  dsimp only at h
  have hc : (addU64 (mulU64 2 (w.met.sched.api .asyncCallStep)) (w.met.sched.api .asyncCallbackGasLock)).toNat =
      2 * (s.met.sched.api .asyncCallStep).toNat + (s.met.sched.api .asyncCallbackGasLock).toNat := by
    rw [hu.met, hmet, addU64_toNat, mulU64_toNat]
    show min (min (2 * _) _ + _) _ = _
    omega
  obtain ⟨h1, h2⟩ := register_end hi hg hu dest (upgradeText code md args) v hn
  rw [hmet] at h1 h2
  have go : ¬ gas.toUInt64 < addU64 (mulU64 2 (w.met.sched.api .asyncCallStep)) (w.met.sched.api .asyncCallbackGasLock) → ∀ r t,
      executeAsyncCall dest (upgradeText code md args) v w = (.ok r, t) → interp E ex p s = (.ok 0, t) := by
    intro hlt r t he
    rw [h, if_neg hlt]
    exact interp_op_ok E ex (.executeAsyncCall dest (upgradeText code md args) v) _ w t r he
  refine ⟨fun hl => ?_, fun hl hr => ?_, fun hl hr => ?_⟩
  · refine ⟨w, ?_, hu⟩
    rw [h, if_pos (by rw [UInt64.lt_iff_toNat_lt, hc]; exact hl)]
    exact interp_op_ok E ex .outOfGas _ w (w.withBp .outOfGas) () (setBreakpoint_run w .outOfGas (i := i) hwi)
  · obtain ⟨t, ht, hR⟩ := h1 hr
    exact ⟨t, go (by rw [UInt64.lt_iff_toNat_lt, hc]; omega) _ _ ht, hR⟩
  · obtain ⟨t, q, ht, hR⟩ := h2 hr
    exact ⟨t, q, go (by rw [UInt64.lt_iff_toNat_lt, hc]; omega) _ _ ht, hR⟩

include hm in
/-- **C64**, `upgradeContract`: an asynchronous call of `upgradeContract` with the code, the metadata and the arguments in the memory. -/
theorem c64_upgrade {destOff : Int32} {gas : Int64} {valueOff codeOff metaOff len num lenOff dataOff : Int32} {dest v code md : Bytes} {args : List Bytes}
    (hl : dest.length = 32) (hdest : Holds (s.insts i).mem destOff dest) (hvl : v.length = 32) (hv : Holds (s.insts i).mem valueOff v)
    (hc : BytesAt (s.insts i).mem codeOff len code) (hml : md.length = 2)
    (hmd : Holds (s.insts i).mem metaOff md) (ha : ArgsAt (s.insts i).mem num lenOff dataOff args) (hg : s.met.cur.gasForExecution.toNat < 2 ^ 63)
    (hsm : 2 * (s.met.sched.api .asyncCallStep).toNat + (s.met.sched.api .asyncCallbackGasLock).toNat < 2 ^ 64)
    {needed : Bool} (hn : needed = true ↔ HasCallback s i ∨ s.flags.dynGasLock = false) :
    Upgrades E ex (eei E (.upgradeContract destOff gas valueOff codeOff metaOff len num lenOff dataOff)) s s i
      ((s.met.sched.api .createContract).toNat + s.met.sched.dataCopyPerByte.toNat * totalLength args + s.met.sched.dataCopyPerByte.toNat * code.length)
      gas dest (upgradeText code md args) v (reservation s needed) := by
  obtain ⟨u, hu, hr⟩ := interp_gas (E := E) (ex := ex) hi .createContract (loadK valueOff 32 0 fun v => loadK codeOff len 0 fun code =>
    loadK metaOff 2 0 fun md => argsGasK num lenOff dataOff 0 fun args => loadK destOff 32 0 fun dest => copyK (len64 len) <|
    upgradeAsyncK dest code md v args gas)
  have hui : u.rt.instance_ = some i := by rw [hu.rt]; exact hi
  have hmu : (u.insts i).mem.length < 2 ^ 31 := by rw [hu.mem]; omega
  obtain ⟨w, hw, hr2⟩ := interp_argsGasK (E := E) (ex := ex) hui hmu (by rw [hu.mem]; exact ha) 0 fun args => loadK destOff 32 0 fun dest =>
    copyK (len64 len) <| upgradeAsyncK dest code md v args gas
  have hp : OnlyPaid s w i ((s.met.sched.api .createContract).toNat + s.met.sched.dataCopyPerByte.toNat * totalLength args) := by
    have := hu.trans hw; rw [hu.met] at this; exact this
  have hwi : w.rt.instance_ = some i := by rw [hp.rt]; exact hi
  obtain ⟨x, hx, hr3⟩ := interp_copyK (E := E) (ex := ex) hwi (bytesAt_bound hc) (upgradeAsyncK dest code md v args gas)
  rw [hp.met] at hx
  refine upgrade_end hi hg hsm rfl (hp.trans hx) dest code md v args gas hn (hr.trans ?_)
  rw [interp_loadK_holds hui hmu (by rw [hvl]; rfl) (by rw [hu.mem]; exact hv),
    interp_loadK_holds hui hmu hc.len (by rw [hu.mem]; exact hc.data), interp_loadK_holds hui hmu (by rw [hml]; rfl) (by rw [hu.mem]; exact hmd)]
  refine hr2.trans ?_
  rw [interp_loadK_holds hwi (by rw [hp.mem]; omega) (by rw [hl]; rfl) (by rw [hp.mem]; exact hdest), ofNat_len hc.len]
  exact hr3

include hm in
/-- **C64**, `upgradeFromSourceContract`: as `upgradeContract`, with the code of another contract; without such a contract the execution fails. -/
theorem c64_upgrade_from {destOff : Int32} {gas : Int64} {valueOff srcOff metaOff num lenOff dataOff : Int32} {dest v src md : Bytes} {args : List Bytes}
    (hl : dest.length = 32) (hdest : Holds (s.insts i).mem destOff dest) (hvl : v.length = 32) (hv : Holds (s.insts i).mem valueOff v)
    (hsl : src.length = 32) (hsrc : Holds (s.insts i).mem srcOff src) (hml : md.length = 2)
    (hmd : Holds (s.insts i).mem metaOff md) (ha : ArgsAt (s.insts i).mem num lenOff dataOff args) (hg : s.met.cur.gasForExecution.toNat < 2 ^ 63)
    (hsm : 2 * (s.met.sched.api .asyncCallStep).toNat + (s.met.sched.api .asyncCallbackGasLock).toNat < 2 ^ 64)
    {needed : Bool} (hn : needed = true ↔ HasCallback s i ∨ s.flags.dynGasLock = false) :
    (∀ code, codeOf E s src = some code →
      ∃ u, CodeSeen s u src code ∧ Upgrades E ex (eei E (.upgradeFromSourceContract destOff gas valueOff srcOff metaOff num lenOff dataOff)) s u i
        ((s.met.sched.api .createContract).toNat + s.met.sched.dataCopyPerByte.toNat * totalLength args)
        gas dest (upgradeText code md args) v (reservation s needed)) ∧
    (codeOf E s src = none → ∃ t, interp E ex (eei E (.upgradeFromSourceContract destOff gas valueOff srcOff metaOff num lenOff dataOff)) s = (.ok 0, t) ∧
      t.curBp = .executionFailed ∧ t.world = s.world) := by
  obtain ⟨u, hu, hr⟩ := interp_gas (E := E) (ex := ex) hi .createContract (loadK valueOff 32 0 fun v => loadK srcOff 32 0 fun src =>
    loadK metaOff 2 0 fun md => argsGasK num lenOff dataOff 0 fun args => loadK destOff 32 0 fun dest => .op (.getCode src) fun r =>
      match r with
      | .error e => faultK e 0
      | .ok code => upgradeAsyncK dest code md v args gas)
  have hui : u.rt.instance_ = some i := by rw [hu.rt]; exact hi
  have hmu : (u.insts i).mem.length < 2 ^ 31 := by rw [hu.mem]; omega
  obtain ⟨w, hw, hr2⟩ := interp_argsGasK (E := E) (ex := ex) hui hmu (by rw [hu.mem]; exact ha) 0 fun args => loadK destOff 32 0 fun dest =>
    .op (.getCode src) fun r =>
      match r with
      | .error e => faultK e 0
      | .ok code => upgradeAsyncK dest code md v args gas
  have hp : OnlyPaid s w i ((s.met.sched.api .createContract).toNat + s.met.sched.dataCopyPerByte.toNat * totalLength args) := by
    have := hu.trans hw; rw [hu.met] at this; exact this
  have hwi : w.rt.instance_ = some i := by rw [hp.rt]; exact hi
  have e : interp E ex (eei E (.upgradeFromSourceContract destOff gas valueOff srcOff metaOff num lenOff dataOff)) s =
      interp E ex (.op (.getCode src) fun r =>
      match r with
      | .error e => faultK e 0
      | .ok code => upgradeAsyncK dest code md v args gas) w := by
    refine hr.trans ?_
    rw [interp_loadK_holds hui hmu (by rw [hvl]; rfl) (by rw [hu.mem]; exact hv),
      interp_loadK_holds hui hmu (by rw [hsl]; rfl) (by rw [hu.mem]; exact hsrc), interp_loadK_holds hui hmu (by rw [hml]; rfl) (by rw [hu.mem]; exact hmd)]
    refine hr2.trans ?_
    rw [interp_loadK_holds hwi (by rw [hp.mem]; omega) (by rw [hl]; rfl) (by rw [hp.mem]; exact hdest)]
  obtain ⟨g1, g2⟩ := getCode_seen (E := E) src w
  have hco : codeOf E w src = codeOf E s src := by unfold codeOf; rw [paid_out hp, hp.world]
  rw [hco] at g1 g2
  refine ⟨fun code hcode => ?_, fun hcode => ?_⟩
  · obtain ⟨x, hx, hs⟩ := g1 code hcode
    refine ⟨{ s with out := x.out }, ⟨?_, ?_⟩, ?_⟩
    · have := hs.rest
      rw [paid_out hp] at this
      show ({ s with out := x.out } : St χ A) = { s with out := { s.out with cur := { s.out.cur with accounts := x.out.cur.accounts } } }
      rw [this]
    · intro b
      have := hs.accounts b
      rw [paid_out hp] at this
      exact this
    · have e2 := e.trans (interp_op_ok E ex (.getCode src) _ w x (.ok code) (by show (Res.ok (getCode E src w).1, (getCode E src w).2) = _; rw [hx]; rfl))
      refine upgrade_end (u := { s with out := x.out }) (w := x) hi hg hsm rfl ?_ dest code md v args gas hn e2
      have h5 : x.insts = w.insts := by rw [hs.rest]
      refine ⟨?_, fun j hj => ?_, ?_, ?_⟩
      · rw [hs.rest]
        have h6 := hp.rest
        generalize w.insts = z at h6
        rw [h6]
      · rw [h5]; exact hp.others j hj
      · rw [h5]; exact hp.running
      · rw [h5]; exact hp.points
  · obtain ⟨er, x, hx, h1, h2, h3⟩ := g2 hcode
    have e2 := e.trans (interp_op_ok E ex (.getCode src) _ w x (.error er) (by show (Res.ok (getCode E src w).1, (getCode E src w).2) = _; rw [hx]; rfl))
    have hxi : x.rt.instance_ = some i := by rw [h1]; exact hwi
    exact ⟨x.faulted E er, e2.trans (interp_faultK E ex er 0 x hxi), curBp_faulted E _ _ hxi, h3.trans hp.world⟩

/-! ### Tokens -/

omit hi in
theorem tokens_run {w : St χ A} {i : Nat} (hi : w.rt.instance_ = some i) (c : CallInput) (token : Bytes) (nonce : UInt64) (v : Nat) :
    interp E ex (.op (.transferESDT c.recipient c.vm.caller token nonce v (some c)) fun r =>
      match r with
      | .error e => faultK e 1
      | .ok gas => .ask fun s =>
        if sameShard E s c.vm.caller c.recipient && E.hook.isSmartContract s.world c.recipient then
          .op (.executeOnDest { c with vm := { c.vm with gasProvided := gas } }) fun e =>
          match e with
          | some _ => .op (.revertSnapshot (E.hook.snapshot w.world)) fun _ => .pure 1
          | none => .pure 0
        else .pure 0) w = sendTokens E ex c token nonce v w := by
  refine (interp_op E ex (.transferESDT _ _ _ _ _ _) _ w).trans ?_
  unfold sendTokens
  have e2 : runCmd E ex (.transferESDT c.recipient c.vm.caller token nonce v (some c)) w =
      transferESDT E c.recipient c.vm.caller token nonce v (some c) w := rfl
  show M.bind _ _ w = _
  unfold M.bind
  rw [e2]
  cases hq : transferESDT E c.recipient c.vm.caller token nonce v (some c) w with
  | mk r t =>
  cases r with
  | panic => rfl
  | oof => rfl
  | ok r =>
    cases r with
    | error e => exact interp_faultK E ex e 1 t (by rw [transferESDT_refused hq]; exact hi)
    | ok g =>
      dsimp only
      rw [interp_ask]
      have e5 : (sameShard E t c.vm.caller c.recipient && E.hook.isSmartContract t.world c.recipient) = true ↔
          E.hook.shardOf t.world c.vm.caller = E.hook.shardOf t.world c.recipient ∧ E.hook.isSmartContract t.world c.recipient = true := by
        unfold sameShard
        rw [Bool.and_eq_true, decide_eq_true_eq]
      by_cases hc : E.hook.shardOf t.world c.vm.caller = E.hook.shardOf t.world c.recipient ∧ E.hook.isSmartContract t.world c.recipient = true
      · rw [if_pos (e5.mpr hc), if_pos hc]
        refine (interp_op E ex (.executeOnDest _) _ t).trans ?_
        show M.bind (M.bind (ex.dest _) fun r => M.pure r.err) _ t = _
        simp only [M.bind, M.pure]
        generalize ex.dest _ t = q
        obtain ⟨r, x⟩ := q
        cases r with
        | ok r =>
          dsimp only
          cases r.err with
          | none => rw [if_pos rfl]; rfl
          | some e => rw [if_neg (by simp)]; rfl
        | panic => rfl
        | oof => rfl
      · rw [if_neg fun h => hc (e5.mp h), if_neg hc]; rfl

include hm in
/-- **C64**, `transferESDTNFTExecute` (and `transferESDTExecute`, with the nonce 0): the tokens are sent with the call laid out in the memory. -/
theorem c64_tokens {destOff tokOff tokLen valueOff : Int32} {nonce gas : Int64} {fOff fLen num lenOff dataOff : Int32} {dest f token : Bytes}
    {args : List Bytes} {v : Nat} (h : CallAt (s.insts i).mem destOff fOff fLen num lenOff dataOff dest f args) (hv : AmountAt (s.insts i).mem valueOff v)
    (ht : BytesAt (s.insts i).mem tokOff tokLen token) :
    ∃ u, OnlyPaid s u i (2 * (s.met.sched.dataCopyPerByte.toNat * totalLength args) + (s.met.sched.api .transferValue).toNat) ∧
      interp E ex (eei E (.transferESDTNFTExecute destOff tokOff tokLen valueOff nonce gas fOff fLen num lenOff dataOff)) s =
        sendTokens E ex (aTokenCall s.rt.cur.scAddress (callGas u gas) dest f args token nonce v) token nonce.toUInt64 v u := by
  have hmu : (s.insts i).mem.length < 2 ^ 31 := by omega
  show ∃ u, _ ∧ interp E ex (Eei.transferESDTNFTExecute E destOff tokOff tokLen valueOff nonce gas fOff fLen num lenOff dataOff) s = _
  unfold Eei.transferESDTNFTExecute
  rw [interp_loadK_holds hi hmu ht.len ht.data]
  obtain ⟨u, hu, hr⟩ := interp_extractK (E := E) (ex := ex) hi hmu h (valueOff := some valueOff) (v := v) hv fun a =>
    copyK (len64 a.actualLen) <| gasK .transferValue <| .ask fun s =>
    let sender := s.rt.cur.scAddress
    let base := callInput s sender 0 gas a
    let transfers : List EsdtTransfer :=
      [{ value := a.value, name := token, tokenType := if nonce > 0 then 1 else 0, nonce := nonce.toUInt64 }]
    let input : CallInput := { base with vm := { base.vm with esdt := transfers } }
    let snapshot := E.hook.snapshot s.world
    .op (.transferESDT a.dest sender token nonce.toUInt64 a.value (some input)) fun r =>
    match r with
    | .error e => faultK e 1
    | .ok gas => .ask fun s =>
      if sameShard E s sender a.dest && E.hook.isSmartContract s.world a.dest then
        .op (.executeOnDest { input with vm := { input.vm with gasProvided := gas } }) fun e =>
        match e with
        | some _ => .op (.revertSnapshot snapshot) fun _ => .pure 1
        | none => .pure 0
      else .pure 0
  have hui : u.rt.instance_ = some i := by rw [hu.rt]; exact hi
  refine ⟨((u.spend (mulU64 u.met.sched.dataCopyPerByte (len64 (Int32.ofNat (totalLength args))))).spend (s.met.sched.api .transferValue)), ?_, hr.trans ?_⟩
  · have h1 : OnlyPaid u (u.spend (mulU64 u.met.sched.dataCopyPerByte (len64 (Int32.ofNat (totalLength args))))) i (s.met.sched.dataCopyPerByte.toNat * totalLength args) := by
      refine (OnlyPaid.spend hui _).cast ?_
      have := totalLength_lt hmu h.args
      rw [len64_of this, hu.met]
      exact mul_price _ _ (by omega)
    have h2 := (hu.trans h1).trans (OnlyPaid.spend (i := i) (by rw [h1.rt]; exact hui) (s.met.sched.api .transferValue))
    exact h2.cast (by congr 1; omega)
  · refine (interp_useK E ex _ _ u hui).trans ((interp_gasK E ex .transferValue _ (u.spend (mulU64 u.met.sched.dataCopyPerByte (len64 (Int32.ofNat (totalLength args))))) (i := i) hui).trans ?_)
    have hmet : (u.spend (mulU64 u.met.sched.dataCopyPerByte (len64 (Int32.ofNat (totalLength args))))).met.sched.api .transferValue = s.met.sched.api .transferValue := by
      rw [St.spend_met, hu.met]
    rw [hmet]
    generalize hw : (u.spend (mulU64 u.met.sched.dataCopyPerByte (len64 (Int32.ofNat (totalLength args))))).spend (s.met.sched.api .transferValue) = w
    have hwrt : w.rt = s.rt := by rw [← hw]; exact hu.rt
    rw [interp_ask]
    dsimp only
    rw [hwrt]
    refine Eq.trans ?_ (tokens_run (E := E) (ex := ex) (by rw [hwrt]; exact hi) (aTokenCall s.rt.cur.scAddress (callGas w gas) dest f args token nonce v)
      token nonce.toUInt64 v)
    have c1 : ∀ (j k : Except Err UInt64 → Eei.P χ A) (a b t : Bytes) (n : UInt64) (x : Int) (c : Option CallInput), (∀ e, j e = k e) →
        interp E ex (.op (.transferESDT a b t n x c) j) w = interp E ex (.op (.transferESDT a b t n x c) k) w := fun j k a b t n x c h => by rw [funext h]
    have c2 : ∀ (j k : Option Err → Eei.P χ A) (c : CallInput), (∀ e, j e = k e) →
        (Free.op (.executeOnDest c) j : Eei.P χ A) = Free.op (.executeOnDest c) k := fun j k c h => by rw [funext h]
    refine c1 _ _ _ _ _ _ _ _ fun e => ?_
    cases e with
    | error e => rfl
    | ok g =>
      refine congrArg Free.ask (funext fun t => ?_)
      refine ite_congr rfl (fun _ => ?_) fun _ => rfl
      exact c2 _ _ _ fun e => by cases e <;> rfl

omit hi in
/-- **C64**, `transferESDTExecute` is `transferESDTNFTExecute` with the nonce 0; the old `transferESDT` does nothing and answers 1. -/
theorem c64_tokens_fungible (destOff tokOff tokLen valueOff : Int32) (gas : Int64) (fOff fLen num lenOff dataOff : Int32) :
    interp E ex (eei E (.transferESDTExecute destOff tokOff tokLen valueOff gas fOff fLen num lenOff dataOff)) s =
      interp E ex (eei E (.transferESDTNFTExecute destOff tokOff tokLen valueOff 0 gas fOff fLen num lenOff dataOff)) s := rfl

end

/-! ### The hypotheses can be met; what may surprise -/

/-- the state of `laidOutState`, with room in the memory, and features active -/
def handing : St Fixture.World EeiCall :=
  { laidOutState with
    flags := { laidOutState.flags with esdt := true, dynGasLock := true }
    rt := { laidOutState.rt with cur := { laidOutState.rt.cur with vmInput := { laidOutState.rt.cur.vmInput with gasProvided := 10000 } } } }

example : handing.rt.instance_ = some 0 ∧ (handing.insts 0).mem.length + 65537 < 2 ^ 31 ∧ (Fixture.addr 101).length = 32 ∧
    Holds (handing.insts 0).mem 0 (Fixture.addr 101) ∧ Holds (handing.insts 0).mem 32 (List.replicate 31 0 ++ [5]) ∧ AmountAt (handing.insts 0).mem 32 5 ∧
    BytesAt (handing.insts 0).mem 73 1 [1] ∧ Holds (handing.insts 0).mem 74 [2, 3] ∧ ArgsAt (handing.insts 0).mem 2 65 73 [[1], [2, 3]] ∧
    CallAt (handing.insts 0).mem 0 64 1 2 65 73 (Fixture.addr 101) Fixture.f [[1], [2, 3]] ∧
    handing.met.cur.gasForExecution.toNat < 2 ^ 63 ∧ isBuiltInCall countEnv [1] = false ∧ countEnv.isBuiltin Fixture.f = false ∧
    MayReceive countEnv handing (Fixture.addr 101) 5 0 ∧ (5 : Int) ≤ balance countEnv handing handing.rt.cur.scAddress ∧
    ¬ (51 : Int) ≤ balance countEnv handing handing.rt.cur.scAddress ∧ codeOf countEnv handing (Fixture.addr 101) = some [1] ∧
    codeOf countEnv handing (Fixture.addr 7) = none ∧ KeepsInst (execN countEnv 3) := by
  refine ⟨rfl, by decide, rfl, .inr ⟨by decide, by decide, by decide +kernel⟩, .inr ⟨by decide, by decide, by decide +kernel⟩,
    ⟨List.replicate 31 0 ++ [5], rfl, .inr ⟨by decide, by decide, by decide +kernel⟩, by decide⟩,
    ⟨rfl, .inr ⟨by decide, by decide, by decide +kernel⟩⟩, .inr ⟨by decide, by decide, by decide +kernel⟩,
    ⟨by decide, .inr ⟨by decide, by decide, by decide +kernel⟩, .inr ⟨by decide, by decide, by decide +kernel⟩⟩,
    ⟨rfl, .inr ⟨by decide, by decide, by decide +kernel⟩, by decide, .inr ⟨by decide, by decide, by decide +kernel⟩,
      by decide, .inr ⟨by decide, by decide, by decide +kernel⟩, .inr ⟨by decide, by decide, by decide +kernel⟩⟩,
    by decide, by decide +kernel, by decide +kernel, ⟨true, rfl, .inl rfl⟩, by decide +kernel, by decide +kernel, by decide +kernel, by decide +kernel,
    keepsInst_execN _ _⟩

/-- the asynchronous call is registered, with 2 steps and one byte paid; its callback is not needed -/
example : ¬ HasCallback handing 0 ∧ handing.flags.dynGasLock = true ∧
    2 * (handing.met.sched.api .asyncCallStep).toNat + handing.met.sched.dataCopyPerByte.toNat * 1 + reservation handing false < handing.gasLeft.toNat ∧
    (interp countEnv (execN countEnv 3) (eei countEnv (.asyncCall 0 32 73 1)) handing).2.rt.cur.asyncCallInfo =
      some { destination := Fixture.addr 101, data := [1], gasLimit := 9997, gasLocked := 0, valueBytes := List.replicate 31 0 ++ [5] } := by
  refine ⟨?_, rfl, by decide +kernel, by decide +kernel⟩
  rintro ⟨p, hp, _⟩
  cases hp

/-- as `countEnv`, with an `init` -/
def initEnv : Env Fixture.World EeiCall := Fixture.envWith [([1], Fixture.mod [(initName, .ret), (Fixture.f, countArgs)])]

/-- a deployment is made, and its address put into the memory -/
example : (match createNewContract initEnv (execN initEnv 3) (aDeployment (Fixture.addr 100) 5 (callGas handing 5000) [1] [2, 3] []) handing with
    | (.ok (.ok a), t) => decide (a.length < 2 ^ 31 ∧ (t.insts 0).mem.length + 65537 < 2 ^ 31 ∧ (t.insts 0).points.toNat ≤ 2 ^ 63 - 1)
    | _ => false) = true ∧
    (interp initEnv (execN initEnv 3) (eei initEnv (.createContract 5000 32 73 74 1 0 0 0 0)) handing).1 = .ok 0 := by decide +kernel

/-- the node of `countEnv`, but no account is payable -/
def unpayableEnv : Env Fixture.World EeiCall := { countEnv with hook := { countEnv.hook with isPayable := fun _ _ => .ok false } }

/-- A contract that is not payable is paid nevertheless: `transferValue` does not look. -/
theorem c64_unpayable_neg : ∃ (E : Env Fixture.World EeiCall) (s : St Fixture.World EeiCall),
    E.hook.isPayable s.world (Fixture.addr 101) = .ok false ∧ E.hook.isSmartContract s.world (Fixture.addr 101) = true ∧
    let q := interp E (execN E 3) (eei E (.transferValue 0 32 64 0)) s
    q.1 = .ok 0 ∧ q.2.curBp = .none ∧ (noted q.2.out (Fixture.addr 101)).balanceDelta = 5 :=
  ⟨unpayableEnv, handing, rfl, by decide +kernel, by decide +kernel⟩

/-- as `handing`, with a receiver in another shard -/
def handingAway : St Fixture.World EeiCall :=
  { handing with insts := fun j => { handing.insts j with mem := overwrite (handing.insts j).mem 0 [9] } }

/-- A contract with 10000 gas left gives a billion of gas to the call it sends to another shard with `transferValueExecute`; it is not charged. -/
theorem c64_limit_neg : ∃ (E : Env Fixture.World EeiCall) (s : St Fixture.World EeiCall),
    s.gasLeft.toNat = 10000 ∧
    let q := interp E (execN E 3) (eei E (.transferValueExecute 0 32 1000000000 64 1 0 65 73)) s
    q.1 = .ok 0 ∧ q.2.gasLeft.toNat + 2 = s.gasLeft.toNat ∧
      (noted q.2.out (9 :: (Fixture.addr 101).tail)).transfers.map OutTransfer.gasLimit = [1000000000] :=
  ⟨countEnv, handingAway, by decide +kernel, by decide +kernel⟩

/-- as `handing`, with a schedule that locks 20000 for callbacks -/
def handingLock : St Fixture.World EeiCall :=
  { handing with
    flags := { handing.flags with dynGasLock := false }
    met := { handing.met with sched := { handing.met.sched with api := fun c => if c = .asyncCallbackGasLock then 20000 else 1 } } }

/-- An upgrade that cannot be paid is not registered, but the contract that asked for it is answered 0 and goes on. -/
theorem c64_upgrade_neg : ∃ (E : Env Fixture.World EeiCall) (s : St Fixture.World EeiCall),
    let q := interp E (execN E 3) (eei E (.upgradeContract 0 30000 32 73 74 1 0 0 0)) s
    q.1 = .ok 0 ∧ q.2.curBp = .none ∧ q.2.rt.cur.asyncCallInfo = none :=
  ⟨countEnv, handingLock, by decide +kernel⟩

/-- Calls in groups cost nothing when they are created, however long their data. (No contract
of this version can make groups of calls: see C81.) -/
theorem c64_free_neg : ∃ (E : Env Fixture.World EeiCall) (s : St Fixture.World EeiCall),
    let q := interp E (execN E 3) (eei E (.createAsyncCall 64 1 0 32 0 76 64 1 64 1 5)) s
    q.1 = .ok 0 ∧ q.2.gasLeft = s.gasLeft ∧ (q.2.rt.cur.asyncContextInfo.contexts.get? [102]).map (fun g => g.calls.map fun c => c.data.length) = some [76] :=
  ⟨countEnv, handing, by decide +kernel⟩

end Arwen.Props
