import Verif.Spec.Requests
import Verif.Props.Entries
import Verif.Props.Value
import Verif.Props.Tokens
import Verif.Props.Effects
import Verif.Props.Async
/-
C64 (what contracts hand out).
-/
namespace Arwen.Props
open Arwen Arwen.Eei Arwen.Spec
variable {χ A : Type} {E : Env χ A} {ex : Executor χ A}

/-! ### Results and logs -/

theorem paid_outSet {s u : St χ A} {i g : Nat} (h : OnlyPaid s u i g) (o : VMOutput) :
    ({ u with out := { u.out with cur := o } } : St χ A) = { u with out := { s.out with cur := o } } := by rw [paid_out h]

/-- the price of a function whose price depends on a length -/
theorem interp_price {s : St χ A} {i : Nat} (hi : s.rt.instance_ = some i) (c : ApiCost) (b : GasSchedule → UInt64) {n : Nat} (hn : n < 2 ^ 31)
    (k : Eei.P χ A) :
    ∃ u, OnlyPaid s u i ((s.met.sched.api c).toNat + (b s.met.sched).toNat * n) ∧
      interp E ex (useK (fun s => addU64 (s.met.sched.api c) (mulU64 (b s.met.sched) (len64 (Int32.ofNat n)))) k) s = interp E ex k u := by
  refine ⟨_, ?_, interp_useK E ex _ k s hi⟩
  refine (OnlyPaid.spend hi _).cast ?_
  rw [len64_of hn, addU64_toNat]
  have := mul_price (b s.met.sched) n (by omega)
  unfold maxPoints at this
  omega

theorem ofNat_len {len : Int32} {n : Nat} (h : len.toInt = n) : len = Int32.ofNat n := by
  apply Int32.toInt_inj.mp
  have : (n : Int) < 2 ^ 31 := by rw [← h]; exact Int32.toInt_lt len
  rw [h, toInt_len (by omega)]

variable {s : St χ A} {i : Nat} (hi : s.rt.instance_ = some i) (hm : (s.insts i).mem.length + 65537 < 2 ^ 31)
include hi

include hm in
/-- **C64**: a result. -/
theorem c64_finish {off len : Int32} {d : Bytes} (hd : BytesAt (s.insts i).mem off len d) :
    Says E ex (eei E (.finish off len)) s i ((s.met.sched.api .finish).toNat + s.met.sched.persistPerByte.toNat * d.length)
      (withResult s.out.cur d) 0 := by
  obtain ⟨u, hu, hr⟩ := interp_price (E := E) (ex := ex) hi .finish GasSchedule.persistPerByte (bytesAt_bound hd)
    (loadK off len 0 fun d => .op (.finish d) fun _ => .pure 0)
  refine ⟨u, hu, ?_⟩
  have h1 : interp E ex (eei E (.finish off len)) s = interp E ex (loadK off len 0 fun d => .op (.finish d) fun _ => .pure 0) u := by
    rw [← ofNat_len hd.len] at hr; exact hr
  rw [h1, interp_loadK_holds (by rw [hu.rt]; exact hi) (by rw [hu.mem]; omega) hd.len (by rw [hu.mem]; exact hd.data),
    ← paid_outSet hu, ← paid_out hu]
  rfl

/-- **C64**: a 64-bit number as a result: the shortest bytes that stand for it. -/
theorem c64_small_finish (signed : Bool) (v : Int64) :
    ∃ b, Encodes signed (wordValue signed v) b ∧
      Says E ex (eei E (.smallIntFinish signed v)) s i (s.met.sched.api .int64Finish).toNat (withResult s.out.cur b) 0 := by
  obtain ⟨u, hu, hr⟩ := interp_gas (E := E) (ex := ex) hi .int64Finish (.op (.finish (smallBytes signed v)) fun _ => .pure 0)
  refine ⟨_, small_encodes signed v, u, hu, hr.trans ?_⟩
  rw [← paid_outSet hu, ← paid_out hu]
  rfl

omit hi in
theorem twos_encodes (v : Int) : Encodes true v (twosToBytes v) := by
  have h : ∀ b, twosFromBytes b = argValue true b := fun b => decode_eq true b
  exact ⟨(h _).symm.trans (c04_signed v), fun c hc => c04_signed_minimal v c ((h c).trans hc)⟩

/-- **C64**: a big integer as a result: the shortest bytes that stand for it, or, unsigned, for its absolute value. -/
theorem c64_big_finish (signed : Bool) (x : Int32) {c : Bytes} (hc : argValue signed c = if signed then handleValue s x else (handleValue s x).natAbs)
    (hcl : c.length < 2 ^ 31) :
    ∃ b, Encodes signed (if signed then handleValue s x else (handleValue s x).natAbs) b ∧
      ∃ u t, OnlyPaid s u i ((s.met.sched.api (if signed then .bigIntFinishSigned else .bigIntFinishUnsigned)).toNat +
          s.met.sched.persistPerByte.toNat * b.length) ∧
        interp E ex (eei E (.bigIntFinish signed x)) s = (.ok 0, t) ∧
        t = { u with big := t.big, out := { s.out with cur := withResult s.out.cur b } } ∧ SameHandles s t := by
  have hen : Encodes signed (if signed then handleValue s x else (handleValue s x).natAbs) (bigBytes signed (handleValue s x)) := by
    cases signed with
    | true => exact twos_encodes _
    | false => exact abs_encodes _
  have hl : (bigBytes signed (handleValue s x)).length < 2 ^ 31 := Nat.lt_of_le_of_lt (hen.shortest c hc) hcl
  refine ⟨_, hen, ?_⟩
  obtain ⟨u, hu, hr⟩ := interp_gas (E := E) (ex := ex) hi (if signed then .bigIntFinishSigned else .bigIntFinishUnsigned)
    (.op (.bigGet x) fun (v : Int) => .op (.finish (bigBytes signed v)) fun _ => persistK (lenU (bigBytes signed v)) (.pure 0))
  have hv : bigVal u x = handleValue s x := by unfold bigVal handleValue; rw [hu.rest]
  have hui : u.rt.instance_ = some i := by rw [hu.rt]; exact hi
  refine ⟨u.spend (mulU64 s.met.sched.persistPerByte (lenU (bigBytes signed (handleValue s x)))),
    { u.spend (mulU64 s.met.sched.persistPerByte (lenU (bigBytes signed (handleValue s x)))) with
      big := (u.big.getOne x).2, out := { s.out with cur := withResult s.out.cur (bigBytes signed (handleValue s x)) } }, ?_, ?_, rfl, ?_⟩
  rotate_left
  · refine hr.trans ((interp_bigGet E ex x _ u).trans ?_)
    rw [hv]
    refine (interp_op_ok E ex (.finish _) (fun _ => persistK _ (.pure 0)) _ _ () rfl).trans ?_
    refine (interp_useK E ex _ _ _ (i := i) (by exact hui)).trans ?_
    show (Res.ok (0 : Int64), _) = _
    rw [Prod.mk.injEq]
    refine ⟨rfl, ?_⟩
    have e1 : (touched u x).met = s.met := hu.met
    show St.spend _ (mulU64 (touched u x).met.sched.persistPerByte _) = _
    rw [e1, ← paid_out hu]
    rfl
  · refine ⟨?_, fun h => ?_⟩
    · show (u.big.getOne x).2.stack = _
      rw [(getOne_val u.big x x).2.2, hu.rest]
    · show ((u.big.getOne x).2.vals.get? h).getD 0 = _
      rw [(getOne_val u.big x h).2.1, hu.rest]; rfl
  · refine hu.trans ((OnlyPaid.spend hui _).cast ?_)
    exact mul_price _ _ (by omega)

include hm in
/-- **C64**: a log entry. In read-only mode there is none, but it has to be paid for. -/
theorem c64_log {num lenOff topicOff dataOff dataLen : Int32} {topics : List Bytes} {d : Bytes}
    (ht : ArgsAt (s.insts i).mem num lenOff topicOff topics) (hd : BytesAt (s.insts i).mem dataOff dataLen d) (hb : totalLength topics + d.length < 2 ^ 31) :
    Says E ex (eei E (.writeEventLog num lenOff topicOff dataOff dataLen)) s i
      ((s.met.sched.api .log).toNat + s.met.sched.dataCopyPerByte.toNat * (totalLength topics + d.length))
      (if s.rt.cur.readOnly then s.out.cur else withLog s.out.cur (entry s.rt.cur.scAddress topics d)) 0 := by
  have e : Int32.ofNat (totalLength topics) + dataLen = Int32.ofNat (totalLength topics + d.length) := by
    rw [ofNat_len hd.len, Int32.ofNat_add]
  obtain ⟨u, hu, hr⟩ := interp_price (E := E) (ex := ex) hi .log GasSchedule.dataCopyPerByte hb
    (.ask fun s => .op (.writeLog s.rt.cur.scAddress topics d) fun _ => .pure 0)
  refine ⟨u, hu, ?_⟩
  show interp E ex (argsEK num lenOff topicOff _) s = _
  rw [interp_argsEK_holds hi (by omega) ht]
  dsimp only
  rw [interp_loadK_holds hi (by omega) hd.len hd.data, e]
  refine hr.trans ?_
  rw [interp_ask]
  refine (interp_writeLog E ex _ _ _ u).trans ?_
  rw [hu.rt, paid_out hu]
  unfold OutCtx.writeLog withLog entry
  split
  · rfl
  · cases topics <;> rfl

/-! ### Payments -/

omit hi in
theorem heard_getAcc (o : OutCtx) (a b : Addr) : noted (o.getAcc a).2.2 b = noted o b := by
  unfold OutCtx.getAcc
  split
  · rfl
  · rename_i h
    unfold noted
    simp only [AMap.get?_insert]
    by_cases hb : a = b
    · subst hb; simp [h]
    · simp [hb]

omit hi in
theorem heard_setAcc (o : OutCtx) (a b : Addr) (x : OutAcc) : noted (o.setAcc a x) b = if a = b then x else noted o b := by
  unfold noted OutCtx.setAcc
  simp only [AMap.get?_insert]
  by_cases hb : a = b <;> simp [hb]

omit hi in
theorem heard_modAcc (o : OutCtx) (a b : Addr) (f : OutAcc → OutAcc) : noted (o.modAcc a f) b = if a = b then f (noted o a) else noted o b := by
  unfold OutCtx.modAcc
  rw [heard_setAcc, (getAcc_noted o a).1]

omit hi in
theorem noted_balance (s : St χ A) (a : Addr) : (s.out.cur.accounts.get? a).bind OutAcc.balance = (noted s.out a).balance := by
  unfold noted
  cases s.out.cur.accounts.get? a <;> rfl

omit hi in
theorem known_noted (s : St χ A) (a : Addr) : known E s a = match (noted s.out a).balance with
    | some b => some b
    | none => (acctOf E s a).map UserAcct.balance := by
  rw [known_eq, noted_balance]
  cases (noted s.out a).balance <;> rfl

omit hi in
theorem known_of {s t : St χ A} (hw : t.world = s.world)
    (h : ∀ a, (noted t.out a).balance = (noted s.out a).balance ∨ (noted t.out a).balance = known E s a) (a : Addr) : known E t a = known E s a := by
  have hA : acctOf E t a = acctOf E s a := by unfold acctOf; rw [hw]
  rcases h a with h | h
  · rw [known_noted t, known_noted s, h, hA]
  · rw [known_noted t, h]
    cases hk : known E s a with
    | some b => rfl
    | none =>
      rw [hA]
      rw [known_noted] at hk
      split at hk
      · cases hk
      · exact hk

omit hi in
theorem getBalance_noted (a b : Addr) (s : St χ A) : noted (getBalance E a s).2.out b =
    if a = b then { noted s.out a with balance := known E s a } else noted s.out b := by
  have hn := getAcc_noted s.out a
  have hg := heard_getAcc s.out a
  have hk := known_noted (E := E) s a
  unfold getBalance
  have hnew : (s.out.getAcc a).2.1 = true → noted s.out a = {} := by
    unfold OutCtx.getAcc noted
    cases s.out.cur.accounts.get? a <;> simp
  generalize s.out.getAcc a = q at hn hg hnew ⊢
  obtain ⟨acc, isNew, o⟩ := q
  dsimp only at hn hg hnew ⊢
  have h1 : acc = noted s.out a := hn.1
  subst h1
  have e : ∀ x : OutAcc, ({ x with balance := x.balance } : OutAcc) = x := fun _ => rfl
  have hcache : (if isNew = true then none else (noted s.out a).balance) = (noted s.out a).balance := by
    split
    · rename_i h; rw [hnew h]
    · rfl
  rw [hcache]
  cases hb : (noted s.out a).balance with
  | some v =>
    rw [hb] at hk
    dsimp only at hk ⊢
    rw [hg]
    split
    · rename_i hab; subst hab; rw [hk, ← hb]
    · rfl
  | none =>
    rw [hb] at hk
    dsimp only at hk ⊢
    cases ha : acctOf E s a with
    | none =>
      rw [ha] at hk
      dsimp only
      rw [hg]
      split
      · rename_i hab; subst hab; rw [hk]; show _ = ({ noted s.out a with balance := none } : OutAcc); rw [← hb]
      · rfl
    | some ua =>
      rw [ha] at hk
      dsimp only
      rw [heard_setAcc]
      split
      · rename_i hab; subst hab; rw [hk]; rfl
      · rw [hg]

omit hi in
theorem getBalance_rest (a : Addr) (s : St χ A) : (getBalance E a s).2 = { s with out := (getBalance E a s).2.out } ∧
    (getBalance E a s).2.out = { s.out with cur := { s.out.cur with accounts := (getBalance E a s).2.out.cur.accounts } } := by
  unfold getBalance OutCtx.getAcc
  cases s.out.cur.accounts.get? a with
  | none =>
    dsimp only
    simp only [if_true]
    split <;> exact ⟨rfl, rfl⟩
  | some acc =>
    dsimp only
    simp only [Bool.false_eq_true, if_false]
    split
    · exact ⟨rfl, rfl⟩
    · split <;> exact ⟨rfl, rfl⟩

omit hi in
/-- what `transfer` does -/
theorem transfer_cases (dest sender : Addr) (gas : UInt64) (v : Nat) (data : Bytes) (s : St χ A) {i : Nat} (hp : (s.insts i).points.toNat ≤ 2 ^ 63 - 1) :
    (v ≤ balance E s sender ∧ MayReceive E s dest v gas →
      ∃ t, transfer E dest sender gas 0 v data .directCall s = (none, t) ∧ PaidOut E s t i 0 sender dest v (payment sender v gas data)) ∧
    (¬ (v ≤ balance E s sender ∧ MayReceive E s dest v gas) →
      ∃ e t, transfer E dest sender gas 0 v data .directCall s = (some e, t) ∧ t = { s with out := t.out } ∧
        (∀ a, { noted t.out a with balance := none } = { noted s.out a with balance := none }) ∧ ∀ a, known E t a = known E s a) := by
  have hb := (c16_balance (E := E) sender s).1
  have hn := getBalance_noted (E := E) sender (s := s)
  have hr := getBalance_rest (E := E) sender s
  unfold transfer transferValueOnly
  rw [if_neg (by omega)]
  generalize getBalance E sender s = q at hb hn hr ⊢
  obtain ⟨bal, u⟩ := q
  dsimp only at hb hn hr ⊢
  subst hb
  obtain ⟨hr1, hr2⟩ := hr
  have hw : u.world = s.world := by rw [hr1]
  have hrt : u.rt = s.rt := by rw [hr1]
  have hfl : u.flags = s.flags := by rw [hr1]
  have hkn : ∀ a, (noted u.out a).balance = (noted s.out a).balance ∨ (noted u.out a).balance = known E s a := by
    intro a
    rw [hn]
    by_cases h : sender = a
    · subst h; rw [if_pos rfl]; exact .inr rfl
    · rw [if_neg h]; exact .inl rfl
  have hac : ∀ a, ({ noted u.out a with balance := none } : OutAcc) = { noted s.out a with balance := none } := by
    intro a
    rw [hn]
    split
    · rename_i h; subst h; rfl
    · rfl
  have bad : ∀ e : Err, ∃ e' t, (some e, u) = (some e', t) ∧ t = { s with out := t.out } ∧
        (∀ a, ({ noted t.out a with balance := none } : OutAcc) = { noted s.out a with balance := none }) ∧ ∀ a, known E t a = known E s a :=
    fun e => ⟨e, u, rfl, hr1, hac, known_of hw hkn⟩
  by_cases h1 : balance E s sender < v
  · rw [if_pos h1]
    exact ⟨fun h => absurd h.1 (by omega), fun _ => bad _⟩
  · rw [if_neg h1, hw, hrt, hfl]
    cases hpay : E.hook.isPayable s.world dest with
    | error e =>
      dsimp only
      refine ⟨fun h => ?_, fun _ => bad _⟩
      obtain ⟨_, b, hb, _⟩ := h
      rw [hpay] at hb; cases hb
    | ok b =>
      dsimp only
      have hmr : MayReceive E s dest v gas ↔ ¬ ((decide (gas > 0) && decide (CallType.directCall ≠ .asynchronousCallBack) || !s.flags.esdt) && !b && decide ((v : Int) > 0) &&
          !(s.flags.v3 && decide (s.rt.cur.vmInput.callType = .asynchronousCall))) = true := by
        have hg : gas > 0 ↔ gas ≠ 0 := by
          rw [gt_iff_lt, UInt64.lt_iff_toNat_lt]
          have : gas ≠ 0 ↔ gas.toNat ≠ 0 := by rw [Ne, ← UInt64.toNat_inj]; rfl
          rw [this]; simp; omega
        unfold MayReceive
        rw [hpay]
        simp only [Except.ok.injEq, exists_eq_left']
        cases b <;> cases s.flags.esdt <;> cases s.flags.v3 <;> by_cases hz : v = 0 <;> by_cases hgz : gas = 0 <;>
          by_cases hct : s.rt.cur.vmInput.callType = .asynchronousCall <;> simp [hz, hgz, hct, hg] <;> omega
      by_cases h2 : MayReceive E s dest v gas
      · rw [if_neg (hmr.mp h2)]
        refine ⟨fun _ => ⟨_, rfl, ?_⟩, fun h => absurd ⟨by omega, h2⟩ h⟩
        have hacc : ∀ a, noted (addTransfer dest { value := (v : Int), gasLimit := gas, gasLocked := 0, data := data, callType := .directCall, sender := sender }
            { u with out := (((u.out.getAcc sender).2.2.getAcc dest).2.2.modAcc sender (fun acc => { acc with balanceDelta := acc.balanceDelta - v })).modAcc dest (fun acc => { acc with balanceDelta := acc.balanceDelta + v }) }).out a =
            { noted u.out a with
              balanceDelta := (noted u.out a).balanceDelta + (if a = dest then (v : Int) else 0) - (if a = sender then (v : Int) else 0)
              transfers := (noted u.out a).transfers ++ if a = dest then [payment sender v gas data] else [] } := by
          intro a
          unfold addTransfer
          simp only [heard_modAcc, heard_getAcc]
          by_cases ha : dest = a
          · subst ha
            by_cases hs : sender = dest
            · subst hs
              simp only [if_true]
              have : (noted u.out sender).balanceDelta - (v : Int) + v = (noted u.out sender).balanceDelta + v - v := by omega
              rw [this]; rfl
            · have hs' : ¬ dest = sender := fun h => hs h.symm
              simp only [if_true, hs, hs', if_false, Int.sub_zero]
              rfl
          · have ha' : ¬ a = dest := fun h => ha h.symm
            by_cases hs : sender = a
            · subst hs
              simp only [ha, ha', if_true, if_false, Int.add_zero, List.append_nil]
            · have hs' : ¬ a = sender := fun h => hs h.symm
              simp only [ha, ha', hs, hs', if_false, Int.add_zero, Int.sub_zero, List.append_nil]
        refine ⟨?_, ?_, fun a => ?_, known_of ?_ fun a => ?_⟩
        · have e : ({ u with world := s.world, flags := s.flags, rt := s.rt, out := s.out } : St χ A) = s := by rw [hr1]
          show OnlyPaid s ({ u with world := s.world, flags := s.flags, rt := s.rt, out := s.out } : St χ A) i 0
          rw [e]
          exact ⟨rfl, fun _ _ => rfl, rfl, by show (s.insts i).points.toNat = _; omega⟩
        · have e : ∀ o : OutCtx, ∀ a, (o.getAcc a).2.2 = { o with cur := { o.cur with accounts := (o.getAcc a).2.2.cur.accounts } } := by
            intro o a; unfold OutCtx.getAcc; split <;> rfl
          unfold addTransfer OutCtx.modAcc OutCtx.setAcc
          dsimp only
          rw [e _ dest, e _ sender, hr2]
        · have h := hac a
          refine (congrArg (fun x : OutAcc => ({ x with balance := none } : OutAcc)) (hacc a)).trans ?_
          dsimp only
          generalize noted u.out a = x at h
          generalize noted s.out a = y at h
          obtain ⟨⟩ := x
          obtain ⟨⟩ := y
          simp only [OutAcc.mk.injEq] at h ⊢
          simp [h]
        · rfl
        · exact (hkn a).imp (fun h => (congrArg OutAcc.balance (hacc a)).trans h) (fun h => (congrArg OutAcc.balance (hacc a)).trans h)
      · have h3 := Classical.not_not.mp (fun h => h2 (hmr.mpr h))
        rw [if_pos h3]
        exact ⟨fun h => absurd h.2 h2, fun _ => bad _⟩

omit hi in
theorem PaidOut.after {s u t : St χ A} {i g p : Nat} {sender dest : Addr} {v : Nat} {x : OutTransfer} (h : OnlyPaid s u i g)
    (ht : PaidOut E u t i p sender dest v x) : PaidOut E s t i (g + p) sender dest v x := by
  have ho : u.out = s.out := paid_out h
  have hp := ht.paid
  rw [ho] at hp
  refine ⟨h.trans ⟨?_, hp.others, hp.running, hp.points⟩, ?_, fun a => ?_, fun a => ?_⟩
  · have := hp.rest; rw [this]
  · rw [← ho]; exact ht.rest
  · rw [← ho]; exact ht.accounts a
  · rw [ht.known]; unfold Spec.known; rw [ho, h.world]

omit hi in
theorem mayReceive_paid {s u : St χ A} {i g : Nat} (h : OnlyPaid s u i g) (dest : Addr) (v : Nat) (gas : UInt64) :
    MayReceive E u dest v gas ↔ MayReceive E s dest v gas := by
  have hf : u.flags = s.flags := by rw [h.rest]
  unfold MayReceive; rw [h.world, h.rt, hf]

omit hi in
theorem balance_paid {s u : St χ A} {i g : Nat} (h : OnlyPaid s u i g) (a : Addr) : balance E u a = balance E s a := by
  unfold balance known; rw [paid_out h, h.world]

omit hi in
theorem NotPaidOut.of {s u t : St χ A} {i g : Nat} {e : Err} (hi : s.rt.instance_ = some i) (h : OnlyPaid s u i g) (hr : t = { u with out := t.out })
    (ha : ∀ a, ({ noted t.out a with balance := none } : OutAcc) = { noted u.out a with balance := none }) (hk : ∀ a, known E t a = known E u a) :
    NotPaidOut E s (t.faulted E e) := by
  have ho : u.out = s.out := paid_out h
  have htw : t.world = u.world := by rw [hr]
  refine ⟨curBp_faulted E _ _ (i := i) ?_, fun a => ?_, fun a => ?_, ?_⟩
  · rw [hr]; show u.rt.instance_ = _; rw [h.rt]; exact hi
  · rw [← ho]; exact ha a
  · have : known E (t.faulted E e) a = known E t a := rfl
    rw [this, hk]; unfold Spec.known; rw [ho, h.world]
  · show t.world = _; rw [htw, h.world]

omit hi in
/-- the end of a payment: the value is sent, or the execution fails -/
theorem pay_end {s u : St χ A} {i g : Nat} (hi : s.rt.instance_ = some i) (hu : OnlyPaid s u i g) {p : Eei.P χ A} {dest sender : Addr} {v : Nat}
    {gas : UInt64} {data : Bytes}
    (h : interp E ex p s = interp E ex (.op (.transfer dest sender gas 0 v data .directCall) fun e => orFaultK e 1 (.pure 0)) u) :
    (v ≤ balance E s sender ∧ MayReceive E s dest v gas →
      ∃ t, interp E ex p s = (.ok 0, t) ∧ PaidOut E s t i g sender dest v (payment sender v gas data)) ∧
    (¬ (v ≤ balance E s sender ∧ MayReceive E s dest v gas) → ∃ t, interp E ex p s = (.ok 1, t) ∧ NotPaidOut E s t) := by
  have hui : u.rt.instance_ = some i := by rw [hu.rt]; exact hi
  obtain ⟨h1, h2⟩ := transfer_cases (E := E) dest sender gas v data u (i := i) (paid_bounded hu)
  rw [balance_paid hu, mayReceive_paid hu] at h1 h2
  have run : ∀ e t, transfer E dest sender gas 0 v data .directCall u = (e, t) → interp E ex p s = interp E ex (orFaultK e 1 (.pure 0)) t := by
    intro e t ht
    exact h.trans (interp_op_ok E ex (.transfer dest sender gas 0 v data .directCall) (fun e => orFaultK e 1 (.pure 0)) u t e
      (by show M.lift _ u = _; unfold M.lift; rw [ht]))
  refine ⟨fun hc => ?_, fun hc => ?_⟩
  · obtain ⟨t, ht, hP⟩ := h1 hc
    exact ⟨t, run _ _ ht, PaidOut.after hu hP⟩
  · obtain ⟨e, t, ht, h3, h4, h5⟩ := h2 hc
    refine ⟨_, (run _ _ ht).trans (interp_faultK E ex e 1 t (i := i) ?_), NotPaidOut.of hi hu h3 h4 h5⟩
    rw [h3]; exact hui

include hm in
/-- **C64**, `transferValue`: the value goes from the running contract to the account, if it owns that much and the account may receive it;
otherwise the execution fails. -/
theorem c64_pay {destOff valueOff dataOff len : Int32} {dest data : Bytes} {v : Nat} (hl : dest.length = 32) (hdest : Holds (s.insts i).mem destOff dest)
    (hv : AmountAt (s.insts i).mem valueOff v) (hd : BytesAt (s.insts i).mem dataOff len data) (hb : isBuiltInCall E data = false) :
    (v ≤ balance E s s.rt.cur.scAddress ∧ MayReceive E s dest v 0 →
      ∃ t, interp E ex (eei E (.transferValue destOff valueOff dataOff len)) s = (.ok 0, t) ∧
        PaidOut E s t i ((s.met.sched.api .transferValue).toNat + s.met.sched.persistPerByte.toNat * data.length)
          s.rt.cur.scAddress dest v (payment s.rt.cur.scAddress v 0 data)) ∧
    (¬ (v ≤ balance E s s.rt.cur.scAddress ∧ MayReceive E s dest v 0) →
      ∃ t, interp E ex (eei E (.transferValue destOff valueOff dataOff len)) s = (.ok 1, t) ∧ NotPaidOut E s t) := by
  obtain ⟨b, hbl, hbv, rfl⟩ := hv
  obtain ⟨u, hu, hr⟩ := interp_gas (E := E) (ex := ex) hi .transferValue (.ask fun s => loadK destOff 32 1 fun dest => loadK valueOff 32 1 fun v =>
    persistK (len64 len) <| loadK dataOff len 1 fun data =>
    if isBuiltInCall E data then .pure 1
    else .op (.transfer dest s.rt.cur.scAddress 0 0 (bytesToNat v) data .directCall) fun e => orFaultK e 1 (.pure 0))
  have hui : u.rt.instance_ = some i := by rw [hu.rt]; exact hi
  have hmu : (u.insts i).mem.length < 2 ^ 31 := by rw [hu.mem]; omega
  have hw : OnlyPaid u (u.spend (mulU64 u.met.sched.persistPerByte (len64 len))) i (s.met.sched.persistPerByte.toNat * data.length) := by
    refine (OnlyPaid.spend hui _).cast ?_
    rw [ofNat_len hd.len, len64_of (bytesAt_bound hd), hu.met]
    exact mul_price _ _ (by have := bytesAt_bound hd; omega)
  refine pay_end (ex := ex) hi (hu.trans hw) (hr.trans ?_)
  rw [interp_ask, interp_loadK_holds hui hmu (by rw [hl]; rfl) (by rw [hu.mem]; exact hdest),
    interp_loadK_holds hui hmu (by rw [hbl]; rfl) (by rw [hu.mem]; exact hbv)]
  refine (interp_useK E ex _ _ u hui).trans ?_
  rw [interp_loadK_holds (i := i) (by rw [hw.rt]; exact hui) (by rw [hw.mem]; exact hmu) hd.len (by rw [hw.mem, hu.mem]; exact hd.data), hb, hu.rt]
  rfl

include hm in
/-- **C64**, `transferValue` with a call of a built-in function: refused, and nothing but the price is paid. -/
theorem c64_pay_builtin {destOff valueOff dataOff len : Int32} {dest data : Bytes} {v : Nat} (hl : dest.length = 32)
    (hdest : Holds (s.insts i).mem destOff dest) (hv : AmountAt (s.insts i).mem valueOff v) (hd : BytesAt (s.insts i).mem dataOff len data)
    (hb : isBuiltInCall E data = true) :
    Tells E ex (eei E (.transferValue destOff valueOff dataOff len)) s i
      ((s.met.sched.api .transferValue).toNat + s.met.sched.persistPerByte.toNat * data.length) 1 := by
  obtain ⟨b, hbl, hbv, rfl⟩ := hv
  obtain ⟨u, hu, hr⟩ := interp_gas (E := E) (ex := ex) hi .transferValue (.ask fun s => loadK destOff 32 1 fun dest => loadK valueOff 32 1 fun v =>
    persistK (len64 len) <| loadK dataOff len 1 fun data =>
    if isBuiltInCall E data then .pure 1
    else .op (.transfer dest s.rt.cur.scAddress 0 0 (bytesToNat v) data .directCall) fun e => orFaultK e 1 (.pure 0))
  have hui : u.rt.instance_ = some i := by rw [hu.rt]; exact hi
  have hmu : (u.insts i).mem.length < 2 ^ 31 := by rw [hu.mem]; omega
  have hw : OnlyPaid u (u.spend (mulU64 u.met.sched.persistPerByte (len64 len))) i (s.met.sched.persistPerByte.toNat * data.length) := by
    refine (OnlyPaid.spend hui _).cast ?_
    rw [ofNat_len hd.len, len64_of (bytesAt_bound hd), hu.met]
    exact mul_price _ _ (by have := bytesAt_bound hd; omega)
  refine ⟨_, hu.trans hw, hr.trans ?_⟩
  rw [interp_ask, interp_loadK_holds hui hmu (by rw [hl]; rfl) (by rw [hu.mem]; exact hdest),
    interp_loadK_holds hui hmu (by rw [hbl]; rfl) (by rw [hu.mem]; exact hbv)]
  refine (interp_useK E ex _ _ u hui).trans ?_
  rw [interp_loadK_holds (i := i) (by rw [hw.rt]; exact hui) (by rw [hw.mem]; exact hmu) hd.len (by rw [hw.mem, hu.mem]; exact hd.data), hb]
  rfl

include hm in
/-- `transferValueExecute`, after its arguments have been read -/
theorem payExecute {destOff valueOff : Int32} {gas : Int64} {fOff fLen num lenOff dataOff : Int32} {dest f : Bytes} {args : List Bytes} {v : Nat}
    (h : CallAt (s.insts i).mem destOff fOff fLen num lenOff dataOff dest f args) (hv : AmountAt (s.insts i).mem valueOff v) :
    ∃ u, OnlyPaid s u i (2 * (s.met.sched.api .transferValue).toNat + s.met.sched.dataCopyPerByte.toNat * totalLength args) ∧
      interp E ex (eei E (.transferValueExecute destOff valueOff gas fOff fLen num lenOff dataOff)) s =
        interp E ex (if E.isBuiltin f then .pure 1
          else if sameShard E s s.rt.cur.scAddress dest && E.hook.isSmartContract s.world dest then
            .op (.executeOnDest (aCall s.rt.cur.scAddress v (callGas u gas) dest f args)) fun e => .pure (match e with | some _ => 1 | none => 0)
          else .op (.transfer dest s.rt.cur.scAddress gas.toUInt64 0 v (callText f args) .directCall) fun e => orFaultK e 1 (.pure 0)) u := by
  obtain ⟨u, hu, hr⟩ := interp_gas (E := E) (ex := ex) hi .transferValue (extractK destOff (some valueOff) fOff fLen num lenOff dataOff fun a =>
    gasK .transferValue <| .ask fun s =>
    let sender := s.rt.cur.scAddress
    let input := callInput s sender a.value gas a
    if E.isBuiltin input.function then .pure 1
    else if sameShard E s sender a.dest && E.hook.isSmartContract s.world a.dest then
      .op (.executeOnDest input) fun e => .pure (match e with | some _ => 1 | none => 0)
    else
      .op (.transfer a.dest sender gas.toUInt64 0 a.value (buildCallData a.function a.args) .directCall) fun e =>
        orFaultK e 1 (.pure 0))
  have hui : u.rt.instance_ = some i := by rw [hu.rt]; exact hi
  obtain ⟨w, hw, hr2⟩ := interp_extractK (E := E) (ex := ex) hui (by rw [hu.mem]; omega) (by rw [hu.mem]; exact h) (valueOff := some valueOff) (v := v)
    (by rw [hu.mem]; exact hv) (fun a =>
    gasK .transferValue <| .ask fun s =>
    let sender := s.rt.cur.scAddress
    let input := callInput s sender a.value gas a
    if E.isBuiltin input.function then .pure 1
    else if sameShard E s sender a.dest && E.hook.isSmartContract s.world a.dest then
      .op (.executeOnDest input) fun e => .pure (match e with | some _ => 1 | none => 0)
    else
      .op (.transfer a.dest sender gas.toUInt64 0 a.value (buildCallData a.function a.args) .directCall) fun e =>
        orFaultK e 1 (.pure 0))
  have hwi : w.rt.instance_ = some i := by rw [hw.rt]; exact hui
  refine ⟨w.spend (w.met.sched.api .transferValue), ?_, hr.trans (hr2.trans ((interp_gasK E ex .transferValue _ w hwi).trans ?_))⟩
  · have := (hu.trans hw).trans (OnlyPaid.spend hwi (w.met.sched.api .transferValue))
    rw [hu.met, hw.met, hu.met] at this
    have e : ∀ a b : Nat, a + b + a = 2 * a + b := by intros; omega
    rw [e] at this; rw [hw.met, hu.met]; exact this
  · rw [interp_ask]
    have e1 : (w.spend (w.met.sched.api .transferValue)).rt = s.rt := by rw [St.spend_rt, hw.rt, hu.rt]
    have e2 : (w.spend (w.met.sched.api .transferValue)).world = s.world := by rw [St.spend_world, hw.world, hu.world]
    have e3 : ∀ t : St χ A, t.world = s.world → sameShard E t s.rt.cur.scAddress dest = sameShard E s s.rt.cur.scAddress dest := by
      intro t h; unfold sameShard; rw [h]
    dsimp only
    rw [e1, e2, e3 _ e2, callText_eq]
    have e4 : callInput (w.spend (w.met.sched.api .transferValue)) s.rt.cur.scAddress v gas ⟨dest, v, f, args, Int32.ofNat (totalLength args)⟩ =
        aCall s.rt.cur.scAddress v (callGas (w.spend (w.met.sched.api .transferValue)) gas) dest f args := rfl
    rw [e4]
    have e5 : ∀ g d x y, (aCall g x y d f args).function = f := fun _ _ _ _ => rfl
    rw [e5]
    split
    · rfl
    · split
      · have e6 : ∀ (j k : Option Err → Eei.P χ A) (c : CallInput) (t : St χ A), (∀ e, j e = k e) →
            interp E ex (.op (.executeOnDest c) j) t = interp E ex (.op (.executeOnDest c) k) t := fun j k c t h => by rw [funext h]
        exact e6 _ _ _ _ fun e => by cases e <;> rfl
      · rfl

include hm in
/-- **C64**, `transferValueExecute` to an account of another shard, or one that is not a contract: the value is sent, with the call as data and
the gas limit as it stands. -/
theorem c64_pay_execute {destOff valueOff : Int32} {gas : Int64} {fOff fLen num lenOff dataOff : Int32} {dest f : Bytes} {args : List Bytes} {v : Nat}
    (h : CallAt (s.insts i).mem destOff fOff fLen num lenOff dataOff dest f args) (hv : AmountAt (s.insts i).mem valueOff v)
    (hb : E.isBuiltin f = false)
    (hs : E.hook.shardOf s.world s.rt.cur.scAddress ≠ E.hook.shardOf s.world dest ∨ E.hook.isSmartContract s.world dest = false) :
    (v ≤ balance E s s.rt.cur.scAddress ∧ MayReceive E s dest v gas.toUInt64 →
      ∃ t, interp E ex (eei E (.transferValueExecute destOff valueOff gas fOff fLen num lenOff dataOff)) s = (.ok 0, t) ∧
        PaidOut E s t i (2 * (s.met.sched.api .transferValue).toNat + s.met.sched.dataCopyPerByte.toNat * totalLength args)
          s.rt.cur.scAddress dest v (payment s.rt.cur.scAddress v gas.toUInt64 (callText f args))) ∧
    (¬ (v ≤ balance E s s.rt.cur.scAddress ∧ MayReceive E s dest v gas.toUInt64) →
      ∃ t, interp E ex (eei E (.transferValueExecute destOff valueOff gas fOff fLen num lenOff dataOff)) s = (.ok 1, t) ∧ NotPaidOut E s t) := by
  obtain ⟨u, hu, hr⟩ := payExecute (E := E) (ex := ex) hi hm (gas := gas) h hv
  refine pay_end hi hu (hr.trans ?_)
  have : (sameShard E s s.rt.cur.scAddress dest && E.hook.isSmartContract s.world dest) = false := by
    rw [Bool.and_eq_false_iff]
    exact hs.imp (fun h => decide_eq_false h) id
  rw [hb, this]
  rfl

include hm in
/-- **C64**, `transferValueExecute` to a contract in the shard: the contract is called, as by `executeOnDestContext`; but if the call fails the
running contract goes on, with the answer 1. -/
theorem c64_pay_call {n : Nat} {destOff valueOff : Int32} {gas : Int64} {fOff fLen num lenOff dataOff : Int32} {dest f : Bytes} {args : List Bytes} {v : Nat}
    (h : CallAt (s.insts i).mem destOff fOff fLen num lenOff dataOff dest f args) (hv : AmountAt (s.insts i).mem valueOff v)
    (hb : E.isBuiltin f = false)
    (hs : E.hook.shardOf s.world s.rt.cur.scAddress = E.hook.shardOf s.world dest) (hc : E.hook.isSmartContract s.world dest = true) :
    ∃ u, OnlyPaid s u i (2 * (s.met.sched.api .transferValue).toNat + s.met.sched.dataCopyPerByte.toNat * totalLength args) ∧
      interp E (execN E n) (eei E (.transferValueExecute destOff valueOff gas fOff fLen num lenOff dataOff)) s =
        ((execN E n).dest (aCall s.rt.cur.scAddress v (callGas u gas) dest f args) >>= fun r t =>
          (.ok (if r.err = none then 0 else 1), t)) u := by
  obtain ⟨u, hu, hr⟩ := payExecute (E := E) (ex := execN E n) hi hm (gas := gas) h hv
  refine ⟨u, hu, hr.trans ?_⟩
  have : (sameShard E s s.rt.cur.scAddress dest && E.hook.isSmartContract s.world dest) = true := by
    rw [Bool.and_eq_true]
    exact ⟨decide_eq_true hs, hc⟩
  rw [hb, this]
  simp only [Bool.false_eq_true, if_false, if_true]
  refine (interp_op E (execN E n) (.executeOnDest _) _ u).trans ?_
  show M.bind (M.bind ((execN E n).dest _) fun r => M.pure r.err) _ u = M.bind ((execN E n).dest _) _ u
  simp only [M.bind, M.pure]
  generalize (execN E n).dest _ u = q
  obtain ⟨r, t⟩ := q
  cases r with
  | ok r => dsimp only; cases r.err <;> rfl
  | panic => rfl
  | oof => rfl

include hm in
/-- **C64**, `transferValueExecute` of a built-in function: refused, and nothing but the price is paid. -/
theorem c64_pay_execute_builtin {destOff valueOff : Int32} {gas : Int64} {fOff fLen num lenOff dataOff : Int32} {dest f : Bytes} {args : List Bytes} {v : Nat}
    (h : CallAt (s.insts i).mem destOff fOff fLen num lenOff dataOff dest f args) (hv : AmountAt (s.insts i).mem valueOff v)
    (hb : E.isBuiltin f = true) :
    Tells E ex (eei E (.transferValueExecute destOff valueOff gas fOff fLen num lenOff dataOff)) s i
      (2 * (s.met.sched.api .transferValue).toNat + s.met.sched.dataCopyPerByte.toNat * totalLength args) 1 := by
  obtain ⟨u, hu, hr⟩ := payExecute (E := E) (ex := ex) hi hm (gas := gas) h hv
  refine ⟨u, hu, hr.trans ?_⟩
  rw [hb]
  rfl

end Arwen.Props
