import Verif.Spec.Getters
import Verif.Props.Arrival
import Verif.Props.BigInt
import Verif.Props.Arith
import Verif.Mandos.ExprLemmas
/-
C61 (what contracts learn about their call and the chain).
-/
namespace Arwen.Props
open Arwen Arwen.Eei Arwen.Spec
variable {χ A : Type} {E : Env χ A} {ex : Executor χ A}

theorem holds_of_store {growOk : Nat → Bool} {mem mem' data : Bytes} {o : Int32} (hm : mem.length + 65537 < 2 ^ 31) (hd : data.length < 2 ^ 31)
    (h : memStorePure growOk mem o data = some (none, mem')) :
    Holds mem' o data ∧ ∀ j, (j < o.toInt.toNat ∨ o.toInt.toNat + data.length ≤ j) → byteAt mem' j = byteAt mem j := by
  obtain ⟨e, m, h1, h2, h3, h4⟩ := c21_store growOk mem data o hm hd
  rw [h] at h1
  simp only [Option.some.injEq, Prod.mk.injEq] at h1
  obtain ⟨rfl, rfl⟩ := h1
  obtain ⟨h5, h6⟩ := h2.mp rfl
  refine ⟨.inr ⟨h5, ?_, ?_⟩, fun j hj => ?_⟩
  · rw [h3, if_neg (by omega)]; exact h6
  · symm
    apply bytesFrom_eq rfl
    intro j hj
    rw [h4, if_pos ⟨rfl, by omega, by omega⟩]
    congr 1; omega
  · rw [h4, if_neg (by omega)]

theorem interp_storeK {s : St χ A} {i : Nat} (hi : s.rt.instance_ = some i) (hm : (s.insts i).mem.length + 65537 < 2 ^ 31) (off : Int32)
    {data : Bytes} (hd : data.length < 2 ^ 31) (ret : Int64) (k : Eei.P χ A) :
    ∃ mem e, interp E ex (storeK off data ret k) s = (match e with
        | none => interp E ex k (s.modInst i fun x => { x with mem := mem })
        | some e => (.ok ret, (s.modInst i fun x => { x with mem := mem }).faulted E e)) ∧
      (e = none → Holds mem off data ∧ ∀ j, (j < off.toInt.toNat ∨ off.toInt.toNat + data.length ≤ j) → byteAt mem j = byteAt (s.insts i).mem j) ∧
      (Fits s i off data → e = none) := by
  obtain ⟨e, mem, h1, h2, h3⟩ := c21_host (E := E) s off data hi hm hd
  refine ⟨mem, e, ?_, ?_, ?_⟩
  · unfold storeK
    rw [interp_op_ok E ex (.memStore off data) _ s _ e h1]
    cases e with
    | none => rfl
    | some e => exact interp_faultK E ex e ret _ hi
  · intro he
    by_cases h0 : data = []
    · rw [(h2 h0).2]; exact ⟨.inl h0, fun _ _ => rfl⟩
    · have := h3 h0
      rw [he] at this
      exact holds_of_store hm hd this
  · rintro ⟨hf, hl⟩
    by_cases h0 : data = []
    · exact (h2 h0).1
    · obtain ⟨e', m, g1, g2, _, _⟩ := c21_store E.wasm.growOk (s.insts i).mem data off hm hd
      rw [h3 h0] at g1
      simp only [Option.some.injEq, Prod.mk.injEq] at g1
      rw [g1.1]
      apply g2.mpr
      refine ⟨hf, Nat.le_trans hl ?_⟩
      unfold sizeAfter
      split <;> omega

/-- storing data after a payment -/
theorem gives_store {s u : St χ A} {i price : Nat} {p : Eei.P χ A} {off : Int32} {data : Bytes} {ret r : Int64} (hi : s.rt.instance_ = some i)
    (hm : (s.insts i).mem.length + 65537 < 2 ^ 31) (hd : data.length < 2 ^ 31) (hu : OnlyPaid s u i price)
    (h : interp E ex p s = interp E ex (storeK off data ret (.pure r)) u) : Gives E ex p s i price off data r := by
  have hui : u.rt.instance_ = some i := by rw [hu.rt]; exact hi
  obtain ⟨mem, e, h1, h2, h3⟩ := interp_storeK (E := E) (ex := ex) (s := u) hui (by rw [hu.mem]; exact hm) off hd ret (.pure r)
  rw [h1] at h
  have wrote : e = none → Wrote s (u.modInst i fun x => { x with mem := mem }) i price off data := by
    intro he
    refine ⟨u, mem, hu, ?_, (h2 he).1, fun j hj => by rw [(h2 he).2 j hj, hu.mem]⟩
    unfold St.modInst
    congr 1
  refine ⟨fun hf => ?_, ?_⟩
  · have he := h3 (by unfold Fits at hf ⊢; rw [hu.mem]; exact hf)
    refine ⟨_, ?_, wrote he⟩
    rw [h, he]; rfl
  · cases e with
    | none => exact ⟨r, _, h, .inl ⟨rfl, wrote rfl⟩⟩
    | some e => exact ⟨ret, _, h, .inr (curBp_faulted E _ e hui)⟩

theorem lenRes_eq {b : Bytes} (h : b.length < 2 ^ 31) : lenRes b = asResult b.length := by
  unfold lenRes asResult
  apply Int64.toInt_inj.mp
  rw [Int32.toInt_toInt64, toInt_len h, Int64.toInt_ofNat_of_lt (by omega)]

theorem int32Res_eq {n : Nat} (h : n < 2 ^ 31) : (Int32.ofNat n).toInt64 = asResult n := by
  unfold asResult
  apply Int64.toInt_inj.mp
  rw [Int32.toInt_toInt64, toInt_len h, Int64.toInt_ofNat_of_lt (by omega)]

variable {s : St χ A} {i : Nat} (hi : s.rt.instance_ = some i) (hm : (s.insts i).mem.length + 65537 < 2 ^ 31)
include hi

omit hi in
theorem argAt_of {args : List Bytes} {k : Nat} (hk : k < args.length) (hl : args.length < 2 ^ 31) : argAt args (Int32.ofNat k) = some args[k] := by
  unfold argAt
  have hkk : (Int32.ofNat k).toInt = k := toInt_len (by omega)
  rw [if_neg (by rw [Int32.lt_iff_toInt_lt, hkk]; show ¬ (k : Int) < 0; omega)]
  have : (Int32.ofNat k).toNatClampNeg = k := by show (Int32.ofNat k).toInt.toNat = k; rw [hkk]; rfl
  rw [this, List.getElem?_eq_getElem hk]

omit hi in
theorem in_range {k l : Nat} (hk : k < l) (hl : l < 2 ^ 31) : ¬ (Int32.ofNat k < 0 ∨ Int32.ofNat l ≤ Int32.ofNat k) := by
  rw [Int32.lt_iff_toInt_lt, Int32.le_iff_toInt_le, toInt_len (show k < 2 ^ 31 by omega), toInt_len hl]
  show ¬ ((k : Int) < 0 ∨ _)
  omega

omit hi in
theorem out_of_range {id : Int32} {l : Nat} (hl : l < 2 ^ 31) (h : id.toInt < 0 ∨ (l : Int) ≤ id.toInt) : id < 0 ∨ Int32.ofNat l ≤ id := by
  rw [Int32.lt_iff_toInt_lt, Int32.le_iff_toInt_le, toInt_len hl]
  exact h

/-- answering after a payment -/
theorem tells_gas (c : ApiCost) {k : St χ A → Eei.P χ A} {r : Int64} (h : ∀ u, OnlyPaid s u i (s.met.sched.api c).toNat → interp E ex (k u) u = (.ok r, u)) :
    Tells E ex (gasK c (.ask k)) s i (s.met.sched.api c).toNat r := by
  obtain ⟨u, hu, hr⟩ := interp_gas (E := E) (ex := ex) hi c (.ask k)
  exact ⟨u, hu, hr.trans ((interp_ask E ex k u).trans (h u hu))⟩

include hm
theorem gives_gas (c : ApiCost) {k : St χ A → Eei.P χ A} {off : Int32} {data : Bytes} {ret r : Int64} (hd : data.length < 2 ^ 31)
    (h : ∀ u, OnlyPaid s u i (s.met.sched.api c).toNat → k u = storeK off data ret (.pure r)) :
    Gives E ex (gasK c (.ask k)) s i (s.met.sched.api c).toNat off data r := by
  obtain ⟨u, hu, hr⟩ := interp_gas (E := E) (ex := ex) hi c (.ask k)
  refine gives_store hi hm hd hu (ret := ret) (hr.trans ((interp_ask E ex k u).trans ?_))
  rw [h u hu]

/-! ### The call -/

/-- **C61**: its own address. -/
theorem c61_address (off : Int32) (hd : s.rt.cur.scAddress.length < 2 ^ 31) :
    Gives E ex (eei E (.getSCAddress off)) s i (s.met.sched.api .getSCAddress).toNat off s.rt.cur.scAddress 0 :=
  gives_gas hi hm _ hd fun u hu => by rw [hu.rt]; rfl

/-- **C61**: who calls. -/
theorem c61_caller (off : Int32) (hd : s.rt.cur.vmInput.caller.length < 2 ^ 31) :
    Gives E ex (eei E (.getCaller off)) s i (s.met.sched.api .getCaller).toNat off s.rt.cur.vmInput.caller 0 :=
  gives_gas hi hm _ hd fun u hu => by rw [hu.rt]; rfl

/-- **C61**: which function is called. -/
theorem c61_function (off : Int32) (hd : s.rt.cur.callFunction.length < 2 ^ 31) :
    Gives E ex (eei E (.getFunction off)) s i (s.met.sched.api .getFunction).toNat off s.rt.cur.callFunction
      (asResult s.rt.cur.callFunction.length) :=
  gives_gas hi hm _ hd (ret := -1) fun u hu => by rw [hu.rt, lenRes_eq hd]

omit hm in
/-- **C61**: the number of arguments. -/
theorem c61_num_arguments (hl : s.rt.cur.vmInput.args.length < 2 ^ 31) :
    Tells E ex (eei E .getNumArguments) s i (s.met.sched.api .getNumArguments).toNat (asResult s.rt.cur.vmInput.args.length) :=
  tells_gas hi _ fun u hu => by rw [hu.rt, int32Res_eq hl]; rfl

/-- **C61**: an argument. -/
theorem c61_argument (off : Int32) {k : Nat} (hl : s.rt.cur.vmInput.args.length < 2 ^ 31) (hk : k < s.rt.cur.vmInput.args.length)
    (hd : s.rt.cur.vmInput.args[k].length < 2 ^ 31) :
    Gives E ex (eei E (.getArgument (Int32.ofNat k) off)) s i (s.met.sched.api .getArgument).toNat off s.rt.cur.vmInput.args[k]
      (asResult s.rt.cur.vmInput.args[k].length) :=
  gives_gas hi hm _ hd (ret := -1) fun u hu => by
    rw [hu.rt, if_neg (in_range hk hl), argAt_of hk hl, ← lenRes_eq hd]

omit hm in
/-- **C61**: the length of an argument. -/
theorem c61_argument_length {k : Nat} (hl : s.rt.cur.vmInput.args.length < 2 ^ 31) (hk : k < s.rt.cur.vmInput.args.length)
    (hd : s.rt.cur.vmInput.args[k].length < 2 ^ 31) :
    Tells E ex (eei E (.getArgumentLength (Int32.ofNat k))) s i (s.met.sched.api .getArgument).toNat (asResult s.rt.cur.vmInput.args[k].length) :=
  tells_gas hi _ fun u hu => by
    rw [hu.rt, if_neg (in_range hk hl), argAt_of hk hl, ← lenRes_eq hd]; rfl

omit hm in
/-- **C61**: an argument that does not exist: the answer is -1 and the memory stays as it is. -/
theorem c61_no_argument (off : Int32) {id : Int32} (hl : s.rt.cur.vmInput.args.length < 2 ^ 31)
    (h : id.toInt < 0 ∨ (s.rt.cur.vmInput.args.length : Int) ≤ id.toInt) :
    Tells E ex (eei E (.getArgument id off)) s i (s.met.sched.api .getArgument).toNat (-1) ∧
    Tells E ex (eei E (.getArgumentLength id)) s i (s.met.sched.api .getArgument).toNat (-1) :=
  ⟨tells_gas hi _ fun u hu => by rw [hu.rt, if_pos (out_of_range hl h)]; rfl,
   tells_gas hi _ fun u hu => by rw [hu.rt, if_pos (out_of_range hl h)]; rfl⟩

omit hi hm in
theorem pad_amount {v : Int} (h0 : 0 < v) (h1 : v < 2 ^ 256) :
    (padBytesLeft (absBytes v) 32).length = 32 ∧ (bytesToNat (padBytesLeft (absBytes v) 32) : Int) = v := by
  have hn : absBytes v ≠ [] := by
    intro h
    have := congrArg bytesToNat h
    unfold absBytes at this
    rw [bytesToNat_natToBytes] at this
    simp at this; omega
  have hlen : (absBytes v).length ≤ 32 := by
    exact Mandos.natToBytes_length_le.2 (by omega)
  obtain ⟨h2, h3, _⟩ := c44_pad (absBytes v) 32 hn (by omega) (by decide)
  have : (32 : Int64).toInt = 32 := rfl
  refine ⟨by omega, ?_⟩
  rw [h3]
  unfold absBytes
  rw [bytesToNat_natToBytes]
  omega

/-- **C61**: the value of the call, if there is any: 32 bytes, the high one first. -/
theorem c61_call_value (off : Int32) (h0 : 0 < s.rt.cur.vmInput.callValue) (h1 : s.rt.cur.vmInput.callValue < 2 ^ 256) :
    ∃ b : Bytes, b.length = 32 ∧ (bytesToNat b : Int) = s.rt.cur.vmInput.callValue ∧
      Gives E ex (eei E (.callValue off)) s i (s.met.sched.api .getCallValue).toNat off b 32 := by
  obtain ⟨h2, h3⟩ := pad_amount h0 h1
  refine ⟨_, h2, h3, gives_gas hi hm _ (by omega) (ret := -1) fun u hu => ?_⟩
  rw [hu.rt]
  show storeK off _ (-1) (.pure (lenRes _)) = _
  rw [lenRes_eq (by omega), h2]; rfl

omit hi hm in
theorem sets_of {u : St χ A} {price : Nat} {p : Eei.P χ A} {d : Int32} {v : Int} {r : Int64} (hu : OnlyPaid s u i price)
    (h : interp E ex p s = interp E ex (.op (.bigGet d) fun _ => .op (.bigSet d v) fun _ => .pure r) u) : Sets E ex p s i price d v r := by
  refine ⟨u, { touched u d with big := (touched u d).big.setVal d v }, hu, ?_, rfl, ?_, fun k => ?_⟩
  · exact h.trans ((interp_bigGet E ex d _ u).trans (interp_bigSet E ex d v _ _))
  · show (u.big.getOne d).2.stack = _
    rw [(getOne_val u.big d d).2.2, hu.rest]
  · have := bigVal_set (touched u d) d k v
    unfold bigVal at this
    rw [this]
    by_cases hk : k = d
    · simp [hk]
    · have h2 := (getOne_val u.big d k).2.1
      rw [if_neg (fun h => hk h), if_neg hk]
      show ((u.big.getOne d).2.vals.get? k).getD 0 = _
      rw [h2, hu.rest]

omit hm in
/-- **C61**: the value of the call as a big integer. -/
theorem c61_big_call_value (d : Int32) :
    Sets E ex (eei E (.bigIntGetCallValue d)) s i (s.met.sched.api .bigIntGetCallValue).toNat d s.rt.cur.vmInput.callValue 0 := by
  obtain ⟨u, hu, hr⟩ := interp_gas (E := E) (ex := ex) hi .bigIntGetCallValue
    (.op (.bigGet d) fun _ => .ask fun s => .op (.bigSet d s.rt.cur.vmInput.callValue) fun _ => .pure 0)
  refine sets_of hu (hr.trans ?_)
  refine ((interp_bigGet E ex d _ u).trans ((interp_ask E ex _ _).trans ?_)).trans (interp_bigGet E ex d _ u).symm
  rw [← hu.rt]
  rfl

omit hi hm in
theorem decode_eq (signed : Bool) (b : Bytes) : decodeBytes signed b = argValue signed b := by
  unfold decodeBytes argValue
  cases signed with
  | false => simp
  | true =>
    have e : ((256 ^ b.length : Nat) : Int) = (256 : Int) ^ b.length := by simp
    simp only [if_true, true_and]
    cases b with
    | nil => rfl
    | cons c cs =>
      have hr := twosFromBytes_range (c :: cs) (by simp)
      have hlt := bytesToNat_lt (c :: cs)
      unfold twosFromBytes at hr ⊢
      dsimp only at hr ⊢
      rw [show cs.length + 1 = (c :: cs).length from rfl] at hr ⊢
      rw [← e] at hr ⊢
      generalize (256 ^ (c :: cs).length : Nat) = m at hr hlt ⊢
      generalize bytesToNat (c :: cs) = v at hr hlt ⊢
      by_cases h : 128 ≤ c
      · rw [if_pos h] at hr ⊢
        split <;> omega
      · rw [if_neg h] at hr ⊢
        split <;> omega

omit hm in
/-- **C61**: an argument as a big integer, unsigned or signed. -/
theorem c61_big_argument (signed : Bool) (d : Int32) {k : Nat} (hl : s.rt.cur.vmInput.args.length < 2 ^ 31) (hk : k < s.rt.cur.vmInput.args.length) :
    Sets E ex (eei E (.bigIntGetArgument signed (Int32.ofNat k) d)) s i
      (s.met.sched.api (if signed then .bigIntGetSignedArgument else .bigIntGetUnsignedArgument)).toNat d
      (argValue signed s.rt.cur.vmInput.args[k]) 0 := by
  obtain ⟨u, hu, hr⟩ := interp_gas (E := E) (ex := ex) hi (if signed then .bigIntGetSignedArgument else .bigIntGetUnsignedArgument)
    (.ask fun s =>
      if Int32.ofNat s.rt.cur.vmInput.args.length ≤ Int32.ofNat k then .pure 0
      else .op (.bigGet d) fun _ =>
        match argAt s.rt.cur.vmInput.args (Int32.ofNat k) with
        | none => .panic
        | some b => .op (.bigSet d (if signed then twosFromBytes b else bytesToNat b)) fun _ => .pure 0)
  refine sets_of hu (hr.trans ?_)
  rw [interp_ask, hu.rt, if_neg fun h => in_range hk hl (.inr h), argAt_of hk hl, ← decode_eq]
  rfl

omit hm in
/-- **C61**: an argument as a 64-bit integer: its value, if it fits; otherwise the execution fails, and so it does if there is no such
argument. -/
theorem c61_small_argument (signed : Bool) (hl : s.rt.cur.vmInput.args.length < 2 ^ 31) :
    (∀ (k : Nat) (hk : k < s.rt.cur.vmInput.args.length),
      (InWord signed (argValue signed s.rt.cur.vmInput.args[k]) →
        ∃ r, wordValue signed r = argValue signed s.rt.cur.vmInput.args[k] ∧
          Tells E ex (eei E (.smallIntGetArgument signed (Int32.ofNat k))) s i (s.met.sched.api .int64GetArgument).toNat r) ∧
      (¬ InWord signed (argValue signed s.rt.cur.vmInput.args[k]) → Refuses E ex (eei E (.smallIntGetArgument signed (Int32.ofNat k))) s)) ∧
    ∀ id : Int32, (id.toInt < 0 ∨ (s.rt.cur.vmInput.args.length : Int) ≤ id.toInt) → Refuses E ex (eei E (.smallIntGetArgument signed id)) s := by
  have run : ∀ id, ∃ u, OnlyPaid s u i (s.met.sched.api .int64GetArgument).toNat ∧
      interp E ex (eei E (.smallIntGetArgument signed id)) s = interp E ex (if id < 0 ∨ id ≥ Int32.ofNat s.rt.cur.vmInput.args.length then
        faultK .argIndexOutOfRange 0
      else match argAt s.rt.cur.vmInput.args id with
        | none => .panic
        | some b =>
          if smallFits signed (decodeBytes signed b) then .pure (Int64.ofInt (decodeBytes signed b)) else faultK .argOutOfRange 0) u := by
    intro id
    obtain ⟨u, hu, hr⟩ := interp_gas (E := E) (ex := ex) hi .int64GetArgument (.ask fun s =>
      if id < 0 ∨ id ≥ Int32.ofNat s.rt.cur.vmInput.args.length then faultK .argIndexOutOfRange 0
      else match argAt s.rt.cur.vmInput.args id with
        | none => .panic
        | some b =>
          if smallFits signed (decodeBytes signed b) then .pure (Int64.ofInt (decodeBytes signed b)) else faultK .argOutOfRange 0)
    refine ⟨u, hu, hr.trans ?_⟩
    rw [interp_ask, hu.rt]
  have fits : ∀ v : Int, smallFits signed v = true ↔ InWord signed v := by
    intro v
    unfold smallFits InWord isInt64 isUint64
    cases signed <;> simp <;> omega
  refine ⟨fun k hk => ?_, fun id h => ?_⟩
  · obtain ⟨u, hu, hr⟩ := run (Int32.ofNat k)
    have hui : u.rt.instance_ = some i := by rw [hu.rt]; exact hi
    rw [if_neg (in_range hk hl), argAt_of hk hl] at hr
    simp only [decode_eq] at hr
    refine ⟨fun hw => ?_, fun hw => ?_⟩
    · rw [if_pos ((fits _).mpr hw)] at hr
      refine ⟨_, ?_, u, hu, hr⟩
      generalize argValue signed _ = v at hw
      unfold InWord at hw
      unfold wordValue
      cases signed with
      | true =>
        simp only [if_true] at hw ⊢
        exact Int64.toInt_ofInt_of_le (by omega) (by omega)
      | false =>
        simp only [Bool.false_eq_true, if_false] at hw ⊢
        obtain ⟨n, rfl⟩ := Int.eq_ofNat_of_zero_le hw.1
        have : (Int64.ofInt (n : Int)).toUInt64 = UInt64.ofNat n := rfl
        rw [this, UInt64.toNat_ofNat_of_lt' (by have := hw.2; show n < 2 ^ 64; omega)]
    · rw [if_neg (fun h => hw ((fits _).mp h)), interp_faultK E ex _ 0 u hui] at hr
      exact ⟨_, _, hr, curBp_faulted E _ _ hui⟩
  · obtain ⟨u, hu, hr⟩ := run id
    have hui : u.rt.instance_ = some i := by rw [hu.rt]; exact hi
    rw [if_pos (out_of_range hl h), interp_faultK E ex _ 0 u hui] at hr
    exact ⟨_, _, hr, curBp_faulted E _ _ hui⟩

/-! ### The tokens that came with the call -/

omit hm in
/-- **C61**: a function that takes no payment: goes on if nothing was paid, refuses the call otherwise. -/
theorem c61_no_payment :
    (s.rt.cur.vmInput.callValue ≤ 0 → s.rt.cur.vmInput.esdt = [] →
      Tells E ex (eei E .checkNoPayment) s i (s.met.sched.api .getCallValue).toNat 0) ∧
    (0 < s.rt.cur.vmInput.callValue ∨ s.rt.cur.vmInput.esdt ≠ [] → Refuses E ex (eei E .checkNoPayment) s) := by
  refine ⟨fun h1 h2 => tells_gas hi _ fun u hu => ?_, fun h => ?_⟩
  · rw [hu.rt, if_neg (by omega), if_neg (by rw [h2]; decide)]; rfl
  · obtain ⟨u, hu, hr⟩ := interp_gas (E := E) (ex := ex) hi .getCallValue (.ask fun s =>
      if s.rt.cur.vmInput.callValue > 0 then faultK .nonPayableFunctionEgld 0
      else if s.rt.cur.vmInput.esdt.length > 0 then faultK .nonPayableFunctionEsdt 0
      else .pure 0)
    have hui : u.rt.instance_ = some i := by rw [hu.rt]; exact hi
    rw [interp_ask, hu.rt] at hr
    by_cases hv : s.rt.cur.vmInput.callValue > 0
    · rw [if_pos hv, interp_faultK E ex _ 0 u hui] at hr
      exact ⟨_, _, hr, curBp_faulted E _ _ hui⟩
    · rw [if_neg hv, if_pos ?_, interp_faultK E ex _ 0 u hui] at hr
      · exact ⟨_, _, hr, curBp_faulted E _ _ hui⟩
      · rcases h with h | h
        · omega
        · exact List.length_pos_iff.mpr h

/-- **C61**: amount, name, nonce and type of the (first) token that came with the call. -/
theorem c61_token {tk : EsdtTransfer} {rest : List EsdtTransfer} (ht : s.rt.cur.vmInput.esdt = tk :: rest) (off : Int32)
    (hn : tk.name.length < 2 ^ 31) :
    (0 < tk.value → tk.value < 2 ^ 256 → ∃ b : Bytes, b.length = 32 ∧ (bytesToNat b : Int) = tk.value ∧
      Gives E ex (eei E (.getESDTValue off)) s i (s.met.sched.api .getCallValue).toNat off b 32) ∧
    Gives E ex (eei E (.getESDTTokenName off)) s i (s.met.sched.api .getCallValue).toNat off tk.name (asResult tk.name.length) ∧
    Tells E ex (eei E .getESDTTokenNonce) s i (s.met.sched.api .getCallValue).toNat tk.nonce.toInt64 ∧
    Tells E ex (eei E .getESDTTokenType) s i (s.met.sched.api .getCallValue).toNat tk.tokenType.toInt32.toInt64 ∧
    ∀ d, Sets E ex (eei E (.bigIntGetESDTCallValue d)) s i (s.met.sched.api .bigIntGetCallValue).toNat d tk.value 0 := by
  have hf : ∀ u : St χ A, u.rt = s.rt → firstEsdt u = tk := by intro u hu; unfold firstEsdt; rw [hu, ht]; rfl
  refine ⟨fun h0 h1 => ?_, ?_, ?_, ?_, fun d => ?_⟩
  · obtain ⟨h2, h3⟩ := pad_amount h0 h1
    refine ⟨_, h2, h3, gives_gas hi hm _ (by omega) (ret := -1) fun u hu => ?_⟩
    rw [hf u hu.rt]
    show storeK off (if tk.value > 0 then _ else _) (-1) (.pure (lenRes (if tk.value > 0 then _ else _))) = _
    rw [if_pos h0, lenRes_eq (by omega), h2]; rfl
  · exact gives_gas hi hm _ hn (ret := -1) fun u hu => by rw [hf u hu.rt, lenRes_eq hn]
  · exact tells_gas hi _ fun u hu => by rw [hf u hu.rt]; rfl
  · exact tells_gas hi _ fun u hu => by rw [hf u hu.rt]; rfl
  · obtain ⟨u, hu, hr⟩ := interp_gas (E := E) (ex := ex) hi .bigIntGetCallValue
      (.op (.bigGet d) fun _ => .ask fun s => .op (.bigSet d (firstEsdt s).value) fun _ => .pure 0)
    refine sets_of hu (hr.trans ?_)
    refine ((interp_bigGet E ex d _ u).trans ((interp_ask E ex _ _).trans ?_)).trans (interp_bigGet E ex d _ u).symm
    rw [hf _ (show (touched u d).rt = s.rt from hu.rt)]

/-! ### The transaction and the chain -/

/-- **C61**: the hash of the transaction at the origin. -/
theorem c61_tx_hash (off : Int32) (hd : s.rt.cur.vmInput.originalTxHash.length < 2 ^ 31) :
    Gives E ex (eei E (.getOriginalTxHash off)) s i (s.met.sched.api .getBlockHash).toNat off s.rt.cur.vmInput.originalTxHash 0 :=
  gives_gas hi hm _ hd fun u hu => by rw [hu.rt]; rfl

omit hm in
/-- **C61**: time, nonce, round and epoch of the current block and of the block before, as the node tells them. -/
theorem c61_block :
    Tells E ex (eei E .getBlockTimestamp) s i (s.met.sched.api .getBlockTimeStamp).toNat (E.hook.currentTimeStamp s.world).toInt64 ∧
    Tells E ex (eei E .getBlockNonce) s i (s.met.sched.api .getBlockNonce).toNat (E.hook.currentNonce s.world).toInt64 ∧
    Tells E ex (eei E .getBlockRound) s i (s.met.sched.api .getBlockRound).toNat (E.hook.currentRound s.world).toInt64 ∧
    Tells E ex (eei E .getBlockEpoch) s i (s.met.sched.api .getBlockEpoch).toNat (E.hook.currentEpoch s.world).toUInt64.toInt64 ∧
    Tells E ex (eei E .getPrevBlockTimestamp) s i (s.met.sched.api .getBlockTimeStamp).toNat (E.hook.lastTimeStamp s.world).toInt64 ∧
    Tells E ex (eei E .getPrevBlockNonce) s i (s.met.sched.api .getBlockNonce).toNat (E.hook.lastNonce s.world).toInt64 ∧
    Tells E ex (eei E .getPrevBlockRound) s i (s.met.sched.api .getBlockRound).toNat (E.hook.lastRound s.world).toInt64 ∧
    Tells E ex (eei E .getPrevBlockEpoch) s i (s.met.sched.api .getBlockEpoch).toNat (E.hook.lastEpoch s.world).toUInt64.toInt64 := by
  refine ⟨?_, ?_, ?_, ?_, ?_, ?_, ?_, ?_⟩ <;> exact tells_gas hi _ fun u hu => by rw [hu.world]; rfl

/-- **C61**: random seeds, state root and block hashes. -/
theorem c61_block_data (off : Int32) {now before : Bytes} (hc : E.hook.currentRandomSeed s.world = some now) (hp : E.hook.lastRandomSeed s.world = some before)
    (h1 : now.length < 2 ^ 31) (h2 : before.length < 2 ^ 31)
    (h3 : (E.hook.stateRootHash s.world).length < 2 ^ 31) :
    Gives E ex (eei E (.getBlockRandomSeed off)) s i (s.met.sched.api .getBlockRandomSeed).toNat off now 0 ∧
    Gives E ex (eei E (.getPrevBlockRandomSeed off)) s i (s.met.sched.api .getBlockRandomSeed).toNat off before 0 ∧
    Gives E ex (eei E (.getStateRootHash off)) s i (s.met.sched.api .getStateRootHash).toNat off (E.hook.stateRootHash s.world) 0 ∧
    ∀ (n : Int64) (h : Bytes), 0 ≤ n.toInt → E.hook.blockhash s.world n.toUInt64 = some (.ok h) → h.length < 2 ^ 31 →
      Gives E ex (eei E (.getBlockHash n off)) s i (s.met.sched.api .getBlockHash).toNat off h 0 := by
  refine ⟨?_, ?_, ?_, fun n h hn hh hl => ?_⟩
  · exact gives_gas hi hm _ h1 fun u hu => by rw [hu.world, hc]; rfl
  · exact gives_gas hi hm _ h2 fun u hu => by rw [hu.world, hp]; rfl
  · exact gives_gas hi hm _ h3 fun u hu => by rw [hu.world]; rfl
  · refine gives_gas hi hm _ hl (ret := 1) fun u hu => ?_
    have : blockHash E u n = some h := by
      unfold blockHash
      rw [if_neg (by rw [Int64.lt_iff_toInt_lt]; show ¬ n.toInt < 0; omega), hu.world, hh]
    rw [this]

/-- **C61**: the owner of the contract. -/
theorem c61_owner (off : Int32) {ua : UserAcct} (h : E.hook.userAccount s.world s.rt.cur.scAddress = .ok (some ua)) (hd : ua.owner.length < 2 ^ 31) :
    Gives E ex (eei E (.getOwnerAddress off)) s i (s.met.sched.api .getOwnerAddress).toNat off ua.owner 0 := by
  refine gives_gas hi hm _ hd (ret := 0) fun u hu => ?_
  have : getOwner E u = .ok ua.owner := by
    unfold getOwner; rw [hu.world, hu.rt, h]
  rw [this]; rfl

/-- **C61**: shard and kind of an address that stands in the memory. -/
theorem c61_of_address {off : Int32} {a : Addr} (ha : a.length = 32) (h : Holds (s.insts i).mem off a) :
    Tells E ex (eei E (.getShardOfAddress off)) s i (s.met.sched.api .getShardOfAddress).toNat (E.hook.shardOf s.world a).toInt32.toInt64 ∧
    Tells E ex (eei E (.isSmartContract off)) s i (s.met.sched.api .isSmartContract).toNat (if E.hook.isSmartContract s.world a then 1 else 0) := by
  constructor
  · obtain ⟨u, hu, hr⟩ := interp_gas (E := E) (ex := ex) hi .getShardOfAddress (loadK off 32 0 fun a => .ask fun s =>
      .pure (E.hook.shardOf s.world a).toInt32.toInt64)
    refine ⟨u, hu, hr.trans ?_⟩
    rw [interp_loadK_holds (by rw [hu.rt]; exact hi) (by rw [hu.mem]; omega) (by rw [ha]; rfl) (by rw [hu.mem]; exact h), interp_ask, hu.world]
    rfl
  · obtain ⟨u, hu, hr⟩ := interp_gas (E := E) (ex := ex) hi .isSmartContract (loadK off 32 0 fun a => .ask fun s =>
      .pure (boolRes (E.hook.isSmartContract s.world a)))
    refine ⟨u, hu, hr.trans ?_⟩
    rw [interp_loadK_holds (by rw [hu.rt]; exact hi) (by rw [hu.mem]; omega) (by rw [ha]; rfl) (by rw [hu.mem]; exact h), interp_ask, hu.world]
    rfl

omit hm in
/-- **C61**: the gas that is left, the price of asking already subtracted. -/
theorem c61_gas_left : ∃ u, OnlyPaid s u i (s.met.sched.api .getGasLeft).toNat ∧ interp E ex (eei E .getGasLeft) s = (.ok u.gasLeft.toInt64, u) := by
  obtain ⟨u, hu, hr⟩ := interp_gas (E := E) (ex := ex) hi .getGasLeft (.ask fun s => .pure s.gasLeft.toInt64)
  exact ⟨u, hu, hr.trans (interp_ask E ex _ u)⟩

/-! ### Results of calls -/

/-- **C61**: the results collected so far: their number, and each of them. -/
theorem c61_results (off : Int32) (hl : s.out.cur.returnData.length < 2 ^ 31) :
    Tells E ex (eei E .getNumReturnData) s i (s.met.sched.api .getNumReturnData).toNat (asResult s.out.cur.returnData.length) ∧
    ∀ (k : Nat) (hk : k < s.out.cur.returnData.length), s.out.cur.returnData[k].length < 2 ^ 31 →
      Tells E ex (eei E (.getReturnDataSize (Int32.ofNat k))) s i (s.met.sched.api .getReturnDataSize).toNat (asResult s.out.cur.returnData[k].length) ∧
      Gives E ex (eei E (.getReturnData (Int32.ofNat k) off)) s i (s.met.sched.api .getReturnData).toNat off s.out.cur.returnData[k]
        (asResult s.out.cur.returnData[k].length) := by
  have ho : ∀ {u : St χ A} {g : Nat}, OnlyPaid s u i g → u.out = s.out := fun hu => by rw [hu.rest]
  refine ⟨tells_gas hi _ fun u hu => by rw [ho hu, int32Res_eq hl]; rfl, fun k hk hd => ⟨?_, ?_⟩⟩
  · refine tells_gas hi _ fun u hu => ?_
    rw [ho hu, if_neg fun h => in_range hk hl (.inr h), argAt_of hk hl, ← lenRes_eq hd]; rfl
  · refine gives_gas hi hm _ hd (ret := 0) fun u hu => ?_
    rw [ho hu, if_neg fun h => in_range hk hl (.inr h), argAt_of hk hl, ← lenRes_eq hd]

omit hi hm in
/-- A negative index of a result panics inside the virtual machine. -/
theorem c61_results_neg : ∃ (s : St Fixture.World EeiCall), s.rt.instance_ = some 0 ∧
    (interp Fixture.env0 (execN Fixture.env0 0) (eei Fixture.env0 (.getReturnDataSize (-1))) s).1 = .panic := by
  refine ⟨Fixture.running, rfl, ?_⟩
  decide +kernel

omit hi hm in
/-- A contract that asks for the value of a call without value gets no zeros: `callValue` answers 0 and leaves in the memory what was there
(an empty string is not padded). A contract that trusts the 32 bytes reads an old value. -/
theorem c61_call_value_neg : ∃ (s : St Fixture.World EeiCall), s.rt.instance_ = some 0 ∧ s.rt.cur.vmInput.callValue = 0 ∧
    Fits s 0 0 (List.replicate 32 0) ∧
    let q := interp Fixture.env0 (execN Fixture.env0 0) (eei Fixture.env0 (.callValue 0)) s
    q.1 = .ok 0 ∧ bytesToNat (bytesFrom (q.2.insts 0).mem 0 32) ≠ 0 := by
  refine ⟨Fixture.running (mem := List.replicate 64 7), rfl, rfl, ⟨by decide, by decide⟩, ?_⟩
  decide +kernel

omit hi hm in
/-- `getCallValueTokenName` never delivers the name of the token: it is copied into an empty slice. The memory stays as it is. -/
theorem c61_token_name_neg : ∃ (s : St Fixture.World EeiCall) (tk : EsdtTransfer), s.rt.instance_ = some 0 ∧ s.rt.cur.vmInput.esdt = [tk] ∧
    tk.name = [84, 75] ∧
    let q := interp Fixture.env0 (execN Fixture.env0 0) (eei Fixture.env0 (.getCallValueTokenName 0 40)) s
    q.1 = .ok 0 ∧ bytesFrom (q.2.insts 0).mem 40 2 = [0, 0] := by
  refine ⟨{ Fixture.running with rt := { Fixture.running.rt with cur := { Fixture.running.rt.cur with
    vmInput := { Fixture.running.rt.cur.vmInput with esdt := [{ value := 5, name := [84, 75] }] } } } }, { value := 5, name := [84, 75] }, rfl, rfl, rfl, ?_⟩
  decide +kernel

/-! ### The hypotheses can be met -/

omit hi hm in
/-- a running contract with two arguments, a value and room in its memory -/
def asked : St Fixture.World EeiCall :=
  { Fixture.running with rt := { Fixture.running.rt with cur := { Fixture.running.rt.cur with
      callFunction := Fixture.f
      vmInput := { Fixture.running.rt.cur.vmInput with caller := Fixture.addr 1, callValue := 258, args := [[1, 2, 3], [255]], originalTxHash := [9],
                                                       esdt := [{ value := 5, name := [84, 75] }] } } } }

example : asked.rt.instance_ = some 0 ∧ (asked.insts 0).mem.length + 65537 < 2 ^ 31 ∧ Fits asked 0 8 (Fixture.addr 1) ∧
    0 < asked.rt.cur.vmInput.callValue ∧ asked.rt.cur.vmInput.args.length = 2 ∧ Fits asked 0 30 [1, 2, 3] := by
  refine ⟨rfl, by decide, ⟨by decide, by decide⟩, by decide, rfl, ⟨by decide, by decide⟩⟩

example : argValue true [255] = -1 ∧ argValue false [255] = 255 ∧ InWord true (-1) ∧ ¬ InWord false (-1) := by
  refine ⟨by decide, by decide, by unfold InWord; decide, by unfold InWord; decide⟩

end Arwen.Props
