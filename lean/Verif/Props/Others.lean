import Verif.Props.Balances
/-
C61, C63 and C64, continued: functions kept under other names, and deprecated ones.
-/
namespace Arwen.Props
open Arwen Arwen.Eei Arwen.Spec
variable {χ A : Type} {E : Env χ A} {ex : Executor χ A}

section
variable {s : St χ A} {i : Nat} (hi : s.rt.instance_ = some i) (hm : (s.insts i).mem.length + 65537 < 2 ^ 31)
include hi

/-- **C61**: `int64getArgument` reads signed numbers. -/
theorem c61_int64 (hl : s.rt.cur.vmInput.args.length < 2 ^ 31) :
    (∀ (k : Nat) (hk : k < s.rt.cur.vmInput.args.length),
      (InWord true (argValue true s.rt.cur.vmInput.args[k]) →
        ∃ r, wordValue true r = argValue true s.rt.cur.vmInput.args[k] ∧
          Tells E ex (eei E (.int64getArgument (Int32.ofNat k))) s i (s.met.sched.api .int64GetArgument).toNat r) ∧
      (¬ InWord true (argValue true s.rt.cur.vmInput.args[k]) → Refuses E ex (eei E (.int64getArgument (Int32.ofNat k))) s)) ∧
    ∀ id : Int32, (id.toInt < 0 ∨ (s.rt.cur.vmInput.args.length : Int) ≤ id.toInt) → Refuses E ex (eei E (.int64getArgument id)) s :=
  c61_small_argument hi true hl

/-- **C64**: `int64finish` writes signed numbers. -/
theorem c64_int64 (v : Int64) :
    ∃ b, Encodes true (wordValue true v) b ∧
      Says E ex (eei E (.int64finish v)) s i (s.met.sched.api .int64Finish).toNat (withResult s.out.cur b) 0 :=
  c64_small_finish hi true v

include hm

/-- **C63**: `int64storageStore` writes numbers as unsigned ones. -/
theorem c63_int64_store {keyOff keyLen : Int32} (v : Int64) {k : Bytes} (hk : BytesAt (s.insts i).mem keyOff keyLen k)
    (hro : s.rt.cur.readOnly = false) (hown : OwnKey E s k) (ho : (view E s s.sto.addr k).length < 2 ^ 64) :
    ∃ b t, Encodes false (wordValue false v) b ∧
      interp E ex (eei E (.int64storageStore keyOff keyLen v)) s = (.ok (storeAnswer (view E s s.sto.addr k) b), t) ∧
      Stored E s t i ((s.met.sched.api .int64StorageStore).toNat +
          (keyCost s.met.sched k + storeCost s.met.sched (view E s s.sto.addr k) b)) k b
        (storeRefund s.met.sched (view E s s.sto.addr k) b) :=
  c63_small_store hi hm false v hk hro hown ho

/-- **C63**: `int64storageLoad` reads numbers as unsigned ones. -/
theorem c63_int64_load {keyOff keyLen : Int32} {k : Bytes} (hk : BytesAt (s.insts i).mem keyOff keyLen k) (ho : (view E s s.sto.addr k).length < 2 ^ 64) :
    (InWord false (argValue false (view E s s.sto.addr k)) →
      ∃ r, wordValue false r = argValue false (view E s s.sto.addr k) ∧
        TellsEntry E ex (eei E (.int64storageLoad keyOff keyLen)) s i
          ((s.met.sched.api .int64StorageLoad).toNat + readCost s.met.sched k (view E s s.sto.addr k)) r) ∧
    (¬ InWord false (argValue false (view E s s.sto.addr k)) → Refuses E ex (eei E (.int64storageLoad keyOff keyLen)) s) :=
  c63_small_load hi hm false hk ho

/-- **C63**: clearing a lock deletes its entry. -/
theorem c63_unlock {keyOff keyLen : Int32} {k : Bytes} (hk : BytesAt (s.insts i).mem keyOff keyLen k) (hro : s.rt.cur.readOnly = false)
    (hp : s.sto.protect = true) (hown : ¬ E.elrondPrefix <+: lockKey k) (ho : (view E s s.sto.addr (lockKey k)).length < 2 ^ 64) :
    ∃ t, interp E ex (eei E (.clearStorageLock keyOff keyLen)) s = (.ok (storeAnswer (view E s s.sto.addr (lockKey k)) []), t) ∧
      Stored E s t i ((s.met.sched.api .int64StorageStore).toNat +
          (keyCost s.met.sched (lockKey k) + storeCost s.met.sched (view E s s.sto.addr (lockKey k)) [])) (lockKey k) []
        (storeRefund s.met.sched (view E s s.sto.addr (lockKey k)) []) := by
  obtain ⟨b, t, h1, h2, h3⟩ := c63_lock (E := E) (ex := ex) hi hm 0 hk hro hp hown ho
  have hb : b = [] := by
    have := h1.shortest [] (by decide)
    exact List.length_eq_zero_iff.mp (by simpa using this)
  subst hb
  exact ⟨t, h2, h3⟩

/-- **C61**: amount of the token that came with the call, or the value of the call if there is no token; the name is not delivered. -/
theorem c61_value_and_name (off nameOff : Int32) {v : Int}
    (hv : v = match s.rt.cur.vmInput.esdt with | tk :: _ => (if tk.name = [] then s.rt.cur.vmInput.callValue else tk.value) | [] => s.rt.cur.vmInput.callValue)
    (h0 : 0 < v) (h1 : v < 2 ^ 256) :
    ∃ b : Bytes, b.length = 32 ∧ (bytesToNat b : Int) = v ∧
      Gives E ex (eei E (.getCallValueTokenName off nameOff)) s i (s.met.sched.api .getCallValue).toNat off b 0 := by
  obtain ⟨h2, h3⟩ := pad_amount h0 h1
  refine ⟨_, h2, h3, ?_⟩
  obtain ⟨u, hu, hr⟩ := interp_gas (E := E) (ex := ex) hi .getCallValue (.ask fun s =>
    let t := firstEsdt s
    let v := padBytesLeft (absBytes (if t.name.length > 0 then t.value else s.rt.cur.vmInput.callValue)) 32
    storeK nameOff [] (-1) <| storeK off v (-1) (.pure 0))
  have hui : u.rt.instance_ = some i := by rw [hu.rt]; exact hi
  rw [interp_ask] at hr
  have hve : (if (firstEsdt u).name.length > 0 then (firstEsdt u).value else u.rt.cur.vmInput.callValue) = v := by
    unfold firstEsdt
    rw [hu.rt, hv]
    cases s.rt.cur.vmInput.esdt with
    | nil => rfl
    | cons tk rest =>
      show (if tk.name.length > 0 then tk.value else _) = (if tk.name = [] then _ else _)
      cases tk.name <;> simp
  dsimp only at hr
  rw [hve] at hr
  have hmem : ((u.modInst i fun x => { x with mem := (u.insts i).mem })) = u := by
    have := refilled_self u i
    unfold refilled at this
    exact this
  obtain ⟨e, mem, g1, g2, -⟩ := c21_host (E := E) u nameOff [] hui (by rw [hu.mem]; exact hm) (by decide)
  obtain ⟨rfl, rfl⟩ := g2 rfl
  rw [hmem] at g1
  have hst : interp E ex (storeK nameOff [] (-1) (storeK off (padBytesLeft (absBytes v) 32) (-1) (.pure 0))) u =
      interp E ex (storeK off (padBytesLeft (absBytes v) 32) (-1) (.pure 0)) u := by
    show interp E ex (.op (.memStore nameOff []) _) u = _
    rw [interp_op_ok E ex (.memStore nameOff []) _ u _ none g1]
    rfl
  exact gives_store hi hm (by omega) hu (hr.trans hst)

omit hm in
/-- **C64**: the old `transferESDT` does nothing; it charges its price and answers 1. -/
theorem c64_tokens_old (destOff tokOff tokLen valueOff : Int32) (gas : Int64) (dataOff : Int32) {len : Int32} (hl : 0 ≤ len.toInt) :
    Tells E ex (eei E (.transferESDT destOff tokOff tokLen valueOff gas dataOff len)) s i
      ((s.met.sched.api .transferValue).toNat + s.met.sched.persistPerByte.toNat * len.toInt.toNat) 1 := by
  have hlt := Int32.toInt_lt len
  obtain ⟨u, hu, hr⟩ := interp_gas (E := E) (ex := ex) hi .transferValue (persistK (len64 len) (.pure 1))
  have hui : u.rt.instance_ = some i := by rw [hu.rt]; exact hi
  refine ⟨_, hu.trans ((OnlyPaid.spend hui _).cast ?_), hr.trans (interp_useK E ex _ _ _ (i := i) (by exact hui))⟩
  rw [ofNat_len (len := len) (n := len.toInt.toNat) (by omega), len64_of (by omega), hu.met, toInt_len (by omega), Int.toNat_natCast]
  exact mul_price _ _ (by omega)

/-- the topics of the deprecated `writeLog` lie one after the other, 32 bytes each -/
theorem interp_topics (k : List Bytes → Eei.P χ A) (topics : List Bytes) : ∀ (off : Int32), (∀ t ∈ topics, t.length = 32) →
    Holds (s.insts i).mem off topics.flatten → interp E ex (topicsK topics.length off k) s = interp E ex (k topics) s := by
  induction topics generalizing k with
  | nil => intro off _ _; rfl
  | cons t ts ih =>
    intro off hl hh
    rw [List.flatten_cons] at hh
    have ht : t.length = 32 := hl t List.mem_cons_self
    have h32 : (32 : Int32).toInt = t.length := by rw [ht]; rfl
    obtain ⟨h1, h2⟩ := holds_append (by omega) h32 hh
    show interp E ex (loadK off 32 0 fun t => topicsK ts.length (off + 32) fun ts => k (t :: ts)) s = _
    rw [interp_loadK_holds hi (by omega) h32 h1]
    exact ih (fun ts => k (t :: ts)) (off + 32) (fun x hx => hl x (List.mem_cons_of_mem _ hx)) h2

/-- **C64**: the old `writeLog`: topics of 32 bytes each. -/
theorem c64_log_old {num topicOff dataOff dataLen : Int32} {topics : List Bytes} {d : Bytes} (hn : num.toInt = topics.length)
    (hl : ∀ t ∈ topics, t.length = 32) (ht : Holds (s.insts i).mem topicOff topics.flatten) (hd : BytesAt (s.insts i).mem dataOff dataLen d)
    (hb : 32 * topics.length + d.length < 2 ^ 31) :
    Says E ex (eei E (.writeLog dataOff dataLen topicOff num)) s i
      ((s.met.sched.api .log).toNat + s.met.sched.persistPerByte.toNat * (32 * topics.length + d.length))
      (if s.rt.cur.readOnly then s.out.cur else withLog s.out.cur (entry s.rt.cur.scAddress topics d)) 0 := by
  have e : num * 32 + dataLen = Int32.ofNat (32 * topics.length + d.length) := by
    rw [ofNat_len hd.len, ofNat_len hn, Nat.mul_comm, Int32.ofNat_add, Int32.ofNat_mul]
    rfl
  have hnum : num.toNatClampNeg = topics.length := by
    show num.toInt.toNat = _
    rw [hn]; rfl
  obtain ⟨u, hu, hr⟩ := interp_price (E := E) (ex := ex) hi .log GasSchedule.persistPerByte hb
    (loadK dataOff dataLen 0 fun data =>
      if num < 0 then faultK errNegativeCount 0
      else topicsK num.toNatClampNeg topicOff fun ts => .ask fun s =>
        .op (.writeLog s.rt.cur.scAddress ts data) fun _ => .pure 0)
  rw [← e] at hr
  replace hr : interp E ex (eei E (.writeLog dataOff dataLen topicOff num)) s = _ := hr
  have hui : u.rt.instance_ = some i := by rw [hu.rt]; exact hi
  rw [interp_loadK_holds hui (by rw [hu.mem]; omega) hd.len (by rw [hu.mem]; exact hd.data), if_neg (by
      rw [Int32.lt_iff_toInt_lt, hn]; show ¬ (topics.length : Int) < 0; omega), hnum,
    interp_topics hui (by rw [hu.mem]; exact hm) _ topics topicOff hl (by rw [hu.mem]; exact ht), interp_ask] at hr
  refine ⟨u, hu, hr.trans ((interp_writeLog E ex _ _ _ u).trans ?_)⟩
  rw [hu.rt, paid_out hu]
  unfold OutCtx.writeLog withLog entry
  split
  · rfl
  · cases topics <;> rfl

end

/-! ### The hypotheses can be met -/

/-- a memory with two topics and the data [9] -/
def logging : St Fixture.World EeiCall := Fixture.running (List.replicate 32 1 ++ List.replicate 32 2 ++ [9]) 10000

example : logging.rt.instance_ = some 0 ∧ (logging.insts 0).mem.length + 65537 < 2 ^ 31 ∧
    Holds (logging.insts 0).mem 0 [List.replicate 32 1, List.replicate 32 2].flatten ∧ BytesAt (logging.insts 0).mem 64 1 [9] := by
  exact ⟨rfl, by decide +kernel, .inr ⟨by decide +kernel, by decide +kernel, by decide +kernel⟩, ⟨rfl, .inr ⟨by decide +kernel, by decide +kernel, by decide +kernel⟩⟩⟩

example : (interp Fixture.env0 (execN Fixture.env0 3) (eei Fixture.env0 (.writeLog 64 1 0 2)) logging).2.out.cur.logs =
    [entry logging.rt.cur.scAddress [List.replicate 32 1, List.replicate 32 2] [9]] := by decide +kernel

end Arwen.Props
