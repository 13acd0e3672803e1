import Verif.Spec.Arrival
import Verif.Fixture
import Verif.Props.Memory
import Verif.Props.Storage
import Verif.Props.Outcome
/-
C60 (what a contract hands to another one).
-/
namespace Arwen.Props
open Arwen Arwen.Eei Arwen.Spec
variable {χ A : Type} {E : Env χ A}

/-! ### Memory -/

theorem bytesFrom_length (mem : Bytes) (o n : Nat) : (bytesFrom mem o n).length = n := by simp [bytesFrom]

theorem bytesFrom_append (mem : Bytes) (o m n : Nat) : bytesFrom mem o (m + n) = bytesFrom mem o m ++ bytesFrom mem (o + m) n := by
  unfold bytesFrom
  rw [List.range_add, List.map_append, List.map_map]
  congr 1
  apply List.map_congr_left
  intro j _
  simp [Nat.add_assoc]

theorem toInt_addLen {off n : Int32} {k : Nat} (hk : n.toInt = k) (h0 : 0 ≤ off.toInt) (hb : off.toInt.toNat + k < 2 ^ 31) :
    (off + n).toInt = off.toInt + k := by
  rw [Int32.toInt_add, hk]
  apply Int.bmod_eq_of_le
  · omega
  · omega

theorem holds_append {mem : Bytes} {off n : Int32} {a b : Bytes} (hm : mem.length < 2 ^ 31) (hn : n.toInt = a.length) (h : Holds mem off (a ++ b)) :
    Holds mem off a ∧ Holds mem (off + n) b := by
  rcases h with h | ⟨h1, h2, h3⟩
  · rw [List.append_eq_nil_iff] at h; exact ⟨.inl h.1, .inl h.2⟩
  · rw [List.length_append] at h2 h3
    rw [bytesFrom_append] at h3
    obtain ⟨h4, h5⟩ := List.append_inj h3 (bytesFrom_length ..)
    refine ⟨.inr ⟨h1, by omega, h4⟩, .inr ?_⟩
    have := toInt_addLen hn h1 (by omega)
    refine ⟨by omega, by omega, ?_⟩
    have e : (off + n).toInt.toNat = off.toInt.toNat + a.length := by omega
    rw [e]; exact h5

theorem memLoad_holds {s : St χ A} {i : Nat} (hi : s.rt.instance_ = some i) (hm : (s.insts i).mem.length < 2 ^ 31) {off n : Int32} {data : Bytes}
    (hn : n.toInt = data.length) (h : Holds (s.insts i).mem off data) : memLoad s off n = .ok (.ok data) := by
  rw [c21_host_load s off n hi hm]
  by_cases h0 : data = []
  · subst h0; simp [hn]
  · rcases h with h | ⟨h1, h2, h3⟩
    · exact absurd h h0
    · have : data.length ≠ 0 := fun h => h0 (List.length_eq_zero_iff.mp h)
      rw [if_neg (by omega), if_neg (by omega), if_neg (by omega), hn]
      show Res.ok (Except.ok (bytesFrom _ off.toInt.toNat (data.length : Int).toNat)) = _
      rw [Int.toNat_natCast, h3]

theorem toInt_len {n : Nat} (h : n < 2 ^ 31) : (Int32.ofNat n).toInt = n := Int32.toInt_ofNat_of_lt h

theorem int32LE_lengthBytes {n : Nat} (h : n < 2 ^ 31) : int32LE (lengthBytes n) = Int32.ofNat n := by
  unfold lengthBytes int32LE
  dsimp only
  rw [UInt8.toNat_ofNat', UInt8.toNat_ofNat', UInt8.toNat_ofNat', UInt8.toNat_ofNat']
  have : n % 2 ^ 8 + 256 * (n / 256 % 2 ^ 8) + 65536 * (n / 65536 % 2 ^ 8) + 16777216 * (n / 16777216 % 2 ^ 8) = n := by omega
  rw [this]
  rfl

theorem int32Array_table (args : List Bytes) (h : ∀ a ∈ args, a.length < 2 ^ 31) :
    int32Array (args.flatMap fun a => lengthBytes a.length) args.length = args.map fun a => Int32.ofNat a.length := by
  induction args with
  | nil => rfl
  | cons a args ih =>
    have h1 : (lengthBytes a.length).length = 4 := rfl
    simp only [List.flatMap_cons, List.length_cons, int32Array, List.map_cons]
    rw [List.take_left' h1, List.drop_left' h1, int32LE_lengthBytes (h a List.mem_cons_self), ih (fun b hb => h b (List.mem_cons_of_mem _ hb))]

theorem memLoadMultiple_holds {s : St χ A} {i : Nat} (hi : s.rt.instance_ = some i) (hm : (s.insts i).mem.length < 2 ^ 31) :
    ∀ (args : List Bytes) (off : Int32), (∀ a ∈ args, a.length < 2 ^ 31) → Holds (s.insts i).mem off args.flatten →
      memLoadMultiple s off (args.map fun a => Int32.ofNat a.length) = .ok (.ok args) := by
  intro args
  induction args with
  | nil => intro off _ _; rfl
  | cons a args ih =>
    intro off hl h
    have ha := hl a List.mem_cons_self
    obtain ⟨h1, h2⟩ := holds_append (n := Int32.ofNat a.length) hm (toInt_len ha) (by simpa using h)
    simp only [List.map_cons, memLoadMultiple]
    rw [memLoad_holds hi hm (toInt_len ha) h1, ih _ (fun b hb => hl b (List.mem_cons_of_mem _ hb)) h2]

theorem flatten_bound {mem : Bytes} {off : Int32} {args : List Bytes} (hm : mem.length < 2 ^ 31) (h : Holds mem off args.flatten) :
    (args.map List.length).sum < 2 ^ 31 := by
  have e : args.flatten.length = (args.map List.length).sum := List.length_flatten
  rcases h with h | ⟨_, h, _⟩
  · rw [← e, h]; decide
  · omega

theorem arg_bound {args : List Bytes} (h : (args.map List.length).sum < 2 ^ 31) : ∀ a ∈ args, a.length < 2 ^ 31 := by
  induction args with
  | nil => intro a ha; cases ha
  | cons b args ih =>
    simp only [List.map_cons, List.sum_cons] at h
    intro a ha
    rcases List.mem_cons.mp ha with rfl | ha
    · omega
    · exact ih (by omega) a ha

theorem sum_lengths (args : List Bytes) : ∀ n : Nat, n + (args.map List.length).sum < 2 ^ 31 →
    (args.map fun a => Int32.ofNat a.length).foldl (· + ·) (Int32.ofNat n) = Int32.ofNat (n + (args.map List.length).sum) := by
  induction args with
  | nil => intro n _; simp
  | cons a args ih =>
    intro n h
    simp only [List.map_cons, List.foldl_cons, List.sum_cons] at h ⊢
    have : Int32.ofNat n + Int32.ofNat a.length = Int32.ofNat (n + a.length) := by
      rw [Int32.ofNat_add]
    rw [this, ih (n + a.length) (by omega), Nat.add_assoc]

/-- the arguments are read as they are laid out -/
theorem argsFromMem_holds {s : St χ A} {i : Nat} (hi : s.rt.instance_ = some i) (hm : (s.insts i).mem.length < 2 ^ 31) {num lenOff dataOff : Int32}
    {args : List Bytes} (h : ArgsAt (s.insts i).mem num lenOff dataOff args) :
    argsFromMem s num lenOff dataOff = .ok (.ok (args, Int32.ofNat (args.map List.length).sum)) := by
  have hs := flatten_bound hm h.data
  have hb := arg_bound hs
  have htab : (args.flatMap fun a => lengthBytes a.length).length = 4 * args.length := by
    clear h hs hb
    induction args with
    | nil => rfl
    | cons a args ih => simp only [List.flatMap_cons, List.length_append, List.length_cons, ih]; show 4 + _ = _; omega
  have hlen : args.length * 4 < 2 ^ 31 := by
    rcases h.lengths with h' | ⟨_, h', _⟩
    · rw [h'] at htab; simp at htab; omega
    · omega
  have hn : ¬ num < 0 := by
    rw [Int32.lt_iff_toInt_lt, h.num]
    show ¬ ((args.length : Int) < 0)
    omega
  have hmul : (num * 4).toInt = (args.length * 4 : Nat) := by
    rw [Int32.toInt_mul, h.num]
    apply Int.bmod_eq_of_le
    · show -_ ≤ (args.length : Int) * 4; omega
    · show (args.length : Int) * 4 < _; omega
  unfold argsFromMem
  rw [if_neg hn, memLoad_holds hi hm (by rw [hmul, htab]; omega) h.lengths]
  have hc : num.toNatClampNeg = args.length := by
    show num.toInt.toNat = _
    rw [h.num]; rfl
  dsimp only
  rw [hc, int32Array_table args hb, memLoadMultiple_holds hi hm args dataOff hb h.data]
  have := sum_lengths args 0 (by omega)
  rw [Nat.zero_add] at this
  dsimp only
  rw [← this]
  rfl

/-! ### The calling contract -/

variable {ex : Executor χ A}

theorem _root_.Arwen.Spec.OnlyPaid.spend {s : St χ A} {i : Nat} (hi : s.rt.instance_ = some i) (g : UInt64) : OnlyPaid s (s.spend g) i g.toNat := by
  refine ⟨rfl, fun j hj => ?_, ?_, ?_⟩
  · simp only [St.spend, hi, Option.some.injEq]; rw [if_neg (fun h => hj h.symm)]
  · simp only [St.spend, hi, if_true]
  · have h := (Paid.spend hi g).points
    unfold maxPoints at h
    have e : ∀ u : St χ A, u.rt.instance_ = some i → u.pointsUsed = (u.insts i).points := by
      intro u hu; simp only [St.pointsUsed, hu]
    rw [e _ hi, e (s.spend g) hi] at h
    exact h

theorem _root_.Arwen.Spec.OnlyPaid.trans {s t u : St χ A} {i g h : Nat} (h1 : OnlyPaid s t i g) (h2 : OnlyPaid t u i h) : OnlyPaid s u i (g + h) := by
  refine ⟨?_, fun j hj => (h2.others j hj).trans (h1.others j hj), ?_, ?_⟩
  · rw [h2.rest, h1.rest]
  · rw [h2.running, h1.running]
  · rw [h2.points, h1.points]; omega

theorem _root_.Arwen.Spec.OnlyPaid.cast {s t : St χ A} {i g h : Nat} (hp : OnlyPaid s t i g) (hh : min g (2 ^ 63 - 1) = min h (2 ^ 63 - 1)) : OnlyPaid s t i h :=
  ⟨hp.rest, hp.others, hp.running, by rw [hp.points]; omega⟩

theorem _root_.Arwen.Spec.OnlyPaid.mem {s t : St χ A} {i g : Nat} (h : OnlyPaid s t i g) : (t.insts i).mem = (s.insts i).mem := by rw [h.running]
theorem _root_.Arwen.Spec.OnlyPaid.rt {s t : St χ A} {i g : Nat} (h : OnlyPaid s t i g) : t.rt = s.rt := by rw [h.rest]
theorem _root_.Arwen.Spec.OnlyPaid.met {s t : St χ A} {i g : Nat} (h : OnlyPaid s t i g) : t.met = s.met := by rw [h.rest]
theorem _root_.Arwen.Spec.OnlyPaid.world {s t : St χ A} {i g : Nat} (h : OnlyPaid s t i g) : t.world = s.world := by rw [h.rest]

theorem interp_loadEK_holds {s : St χ A} {i : Nat} (hi : s.rt.instance_ = some i) (hm : (s.insts i).mem.length < 2 ^ 31) {off n : Int32} {data : Bytes}
    (hn : n.toInt = data.length) (h : Holds (s.insts i).mem off data) (k : Except Err Bytes → Eei.P χ A) :
    interp E ex (loadEK off n k) s = interp E ex (k (.ok data)) s := by
  unfold loadEK
  rw [interp_ask, memLoad_holds hi hm hn h]

theorem interp_loadK_holds {s : St χ A} {i : Nat} (hi : s.rt.instance_ = some i) (hm : (s.insts i).mem.length < 2 ^ 31) {off n : Int32} {data : Bytes}
    (hn : n.toInt = data.length) (h : Holds (s.insts i).mem off data) (ret : Int64) (k : Bytes → Eei.P χ A) :
    interp E ex (loadK off n ret k) s = interp E ex (k data) s := by
  unfold loadK
  rw [interp_loadEK_holds hi hm hn h]

theorem interp_argsEK_holds {s : St χ A} {i : Nat} (hi : s.rt.instance_ = some i) (hm : (s.insts i).mem.length < 2 ^ 31) {num lenOff dataOff : Int32}
    {args : List Bytes} (h : ArgsAt (s.insts i).mem num lenOff dataOff args) (k : Except Err (List Bytes × Int32) → Eei.P χ A) :
    interp E ex (argsEK num lenOff dataOff k) s = interp E ex (k (.ok (args, Int32.ofNat (totalLength args)))) s := by
  unfold argsEK
  rw [interp_ask, argsFromMem_holds hi hm h]
  rfl

theorem len64_of {n : Nat} (h : n < 2 ^ 31) : len64 (Int32.ofNat n) = UInt64.ofNat n := by
  unfold len64
  apply UInt64.toNat_inj.mp
  have h1 : (Int32.ofNat n).toInt64 = Int64.ofNat n := by
    apply Int64.toInt_inj.mp
    rw [Int32.toInt_toInt64, toInt_len h, Int64.toInt_ofNat_of_lt (by omega)]
  rw [h1]
  rfl

theorem totalLength_lt {mem : Bytes} {num lenOff dataOff : Int32} {args : List Bytes} (hm : mem.length < 2 ^ 31) (h : ArgsAt mem num lenOff dataOff args) :
    totalLength args < 2 ^ 31 := flatten_bound hm h.data

/-- paying for copied bytes -/
theorem interp_copyK {s : St χ A} {i : Nat} (hi : s.rt.instance_ = some i) {n : Nat} (hn : n < 2 ^ 31) (k : Eei.P χ A) :
    ∃ u, OnlyPaid s u i (s.met.sched.dataCopyPerByte.toNat * n) ∧ interp E ex (copyK (len64 (Int32.ofNat n)) k) s = interp E ex k u := by
  refine ⟨_, ?_, interp_useK E ex _ k s hi⟩
  refine (OnlyPaid.spend hi _).cast ?_
  rw [len64_of hn]
  exact mul_price _ n (by omega)

theorem interp_gas {s : St χ A} {i : Nat} (hi : s.rt.instance_ = some i) (c : ApiCost) (k : Eei.P χ A) :
    ∃ u, OnlyPaid s u i (s.met.sched.api c).toNat ∧ interp E ex (gasK c k) s = interp E ex k u :=
  ⟨_, .spend hi _, interp_gasK E ex c k s hi⟩

/-- the call laid out in the memory is read exactly -/
theorem interp_extractK {s : St χ A} {i : Nat} (hi : s.rt.instance_ = some i) (hm : (s.insts i).mem.length < 2 ^ 31)
    {destOff fOff fLen num lenOff dataOff : Int32} {dest f : Bytes} {args : List Bytes}
    (h : CallAt (s.insts i).mem destOff fOff fLen num lenOff dataOff dest f args) {valueOff : Option Int32} {v : Nat}
    (hv : match valueOff with | none => v = 0 | some o => AmountAt (s.insts i).mem o v) (k : CallArgs → Eei.P χ A) :
    ∃ u, OnlyPaid s u i (s.met.sched.dataCopyPerByte.toNat * totalLength args) ∧
      interp E ex (extractK destOff valueOff fOff fLen num lenOff dataOff k) s =
        interp E ex (k ⟨dest, v, f, args, Int32.ofNat (totalLength args)⟩) u := by
  have hd : (32 : Int32).toInt = dest.length := by rw [h.destLen]; rfl
  obtain ⟨u, hu, hr⟩ := interp_copyK (E := E) (ex := ex) hi (totalLength_lt hm h.args) (k ⟨dest, v, f, args, Int32.ofNat (totalLength args)⟩)
  refine ⟨u, hu, ?_⟩
  unfold extractK
  rw [interp_loadK_holds hi hm hd h.dest]
  cases valueOff with
  | none =>
    subst hv
    dsimp only
    rw [interp_loadK_holds hi hm h.nameLen h.name, interp_argsEK_holds hi hm h.args]
    exact hr
  | some o =>
    obtain ⟨b, hb, hH, rfl⟩ := hv
    dsimp only
    rw [interp_loadK_holds hi hm (by rw [hb]; rfl) hH, interp_loadK_holds hi hm h.nameLen h.name, interp_argsEK_holds hi hm h.args]
    exact hr

theorem interp_orFaultK {s : St χ A} {i : Nat} (hi : s.rt.instance_ = some i) (e : Option Err) :
    interp E ex (orFaultK e 1 (.pure 0)) s = callAnswer E e s := by
  cases e with
  | none => rfl
  | some e => exact interp_faultK E ex e 1 s hi

/-- the end of a call of another contract -/
theorem exec_run {m : M χ A (Option Err)} {s : St χ A} {i : Nat} (hk : ∀ e t, m s = (.ok e, t) → t.rt.instance_ = some i) :
    (m >>= fun e => interp E ex (orFaultK e 1 (.pure 0))) s = (m >>= fun e => callAnswer E e) s := by
  simp only [M.bind_eq, M.bind]
  generalize hq : m s = q at hk
  obtain ⟨r, t⟩ := q
  cases r with
  | ok e => exact interp_orFaultK (hk e t rfl) e
  | panic => rfl
  | oof => rfl

/-- calls of other contracts, all kinds -/
theorem exec_arrives {s : St χ A} {i : Nat} (hi : s.rt.instance_ = some i) (hm : (s.insts i).mem.length < 2 ^ 31) (kind : ExecKind) {gas : Int64}
    {destOff fOff fLen num lenOff dataOff : Int32} {dest f : Bytes} {args : List Bytes}
    (h : CallAt (s.insts i).mem destOff fOff fLen num lenOff dataOff dest f args) {valueOff : Option Int32} {v : Nat}
    (hv : match valueOff with | none => v = 0 | some o => AmountAt (s.insts i).mem o v) :
    ∃ u, OnlyPaid s u i (s.met.sched.dataCopyPerByte.toNat * totalLength args + (s.met.sched.api kind.cost).toNat) ∧
      interp E ex (exec E kind gas destOff valueOff fOff fLen num lenOff dataOff) s =
        if sameShard E s s.rt.cur.scAddress dest = false then (.ok 1, u.faulted E .syncExecutionNotInSameShard)
        else if kind ≠ .dest ∧ isBuiltInCall E f then (.ok 1, u)
        else interp E ex (kind.run (aCall (if kind = .destByCaller then s.rt.cur.vmInput.caller else s.rt.cur.scAddress)
          (if kind = .delegate ∨ kind = .readOnly then s.rt.cur.vmInput.callValue else v) (callGas u gas) dest f args)
          fun e => orFaultK e 1 (.pure 0)) u := by
  unfold exec
  obtain ⟨u, hu, hr⟩ := interp_extractK (E := E) (ex := ex) hi hm h hv fun a => execTyped E kind gas a
  obtain ⟨w, hw, hr2⟩ := interp_gas (E := E) (ex := ex) (s := u) (by rw [hu.rt]; exact hi) kind.cost
    (.ask fun s =>
      let sender := if kind = .destByCaller then s.rt.cur.vmInput.caller else s.rt.cur.scAddress
      let value := if kind = .delegate ∨ kind = .readOnly then s.rt.cur.vmInput.callValue else ((v : Nat) : Int)
      if !sameShard E s s.rt.cur.scAddress dest then faultK .syncExecutionNotInSameShard 1
      else if kind ≠ .dest ∧ isBuiltInCall E f then .pure 1
      else kind.run (callInput s sender value gas ⟨dest, v, f, args, Int32.ofNat (totalLength args)⟩) fun e => orFaultK e 1 (.pure 0))
  have hwi : w.rt.instance_ = some i := by rw [hw.rt, hu.rt]; exact hi
  refine ⟨w, ?_, ?_⟩
  · have := hu.trans hw
    rw [hu.met] at this
    exact this
  · rw [hr]
    show interp E ex (execTyped E kind gas _) u = _
    unfold execTyped
    refine hr2.trans ?_
    rw [interp_ask]
    dsimp only
    have hrt : w.rt = s.rt := by rw [hw.rt, hu.rt]
    have hsh : sameShard E w w.rt.cur.scAddress dest = sameShard E s s.rt.cur.scAddress dest := by
      unfold sameShard; rw [hrt, hw.world, hu.world]
    rw [hsh, hrt]
    cases sameShard E s s.rt.cur.scAddress dest with
    | false => exact interp_faultK E ex _ 1 w hwi
    | true =>
      by_cases hb : kind ≠ .dest ∧ isBuiltInCall E f = true
      · simp only [Bool.not_true, Bool.false_eq_true, if_false, if_pos hb, Bool.true_eq_false]; rfl
      · simp only [Bool.not_true, Bool.false_eq_true, if_false, if_neg hb, Bool.true_eq_false]; rfl

theorem bind_pure_map {α β : Type} (m : M χ A α) (f : α → β) (g : β → M χ A Int64) :
    ((do let r ← m; pure (f r)) >>= g) = (m >>= fun r => g (f r)) := by
  funext s
  simp only [M.bind_eq, M.bind, M.pure_eq, M.pure]
  generalize m s = q
  obtain ⟨r, t⟩ := q
  cases r <;> rfl

variable {s : St χ A} {i n : Nat} {gas : Int64} {destOff valueOff fOff fLen num lenOff dataOff : Int32} {dest f : Bytes} {args : List Bytes} {v : Nat}

theorem dest_answer {u : St χ A} (hi : u.rt.instance_ = some i) (c : CallInput) :
    interp E (execN E n) (.op (.executeOnDest c) fun e => orFaultK e 1 (.pure 0)) u = ((execN E n).dest c >>= fun r => callAnswer E r.err) u := by
  rw [interp_op]
  have h1 := exec_run (E := E) (ex := execN E n) (i := i) (s := u) (m := do let r ← (execN E n).dest c; pure r.err) (fun e t h => by
    rcases bind_ok h with ⟨r, w, h1, h⟩ | ⟨_, h⟩ | ⟨_, h⟩
    · cases h; rw [((frameEx_execN E n).dest c u r _ h1).inst]; exact hi
    · cases h
    · cases h)
  exact h1.trans (by rw [bind_pure_map])

theorem same_answer {u : St χ A} (hi : u.rt.instance_ = some i) (c : CallInput) :
    interp E (execN E n) (.op (.executeOnSame c) fun e => orFaultK e 1 (.pure 0)) u = ((execN E n).same c >>= fun e => callAnswer E e) u := by
  rw [interp_op]
  exact exec_run (E := E) (ex := execN E n) (i := i) (s := u) (m := (execN E n).same c) (fun e t h => by
    rw [((frameEx_execN E n).same c u e _ h).inst]; exact hi)

/-- **C60**, the calling contract: `executeOnDestContext`. A call laid out in the memory is made with exactly the address, function,
arguments and value that stand there, in the name of the calling contract and with at most the gas it has left. Before the call the contract
pays for it; nothing else is changed. -/
theorem c60_dest (hi : s.rt.instance_ = some i) (hm : (s.insts i).mem.length < 2 ^ 31)
    (h : CallAt (s.insts i).mem destOff fOff fLen num lenOff dataOff dest f args) (hv : AmountAt (s.insts i).mem valueOff v)
    (hs : E.hook.shardOf s.world s.rt.cur.scAddress = E.hook.shardOf s.world dest) :
    ∃ u, OnlyPaid s u i (s.met.sched.dataCopyPerByte.toNat * totalLength args + (s.met.sched.api .executeOnDestContext).toNat) ∧
      interp E (execN E n) (eei E (.executeOnDestContext gas destOff valueOff fOff fLen num lenOff dataOff)) s =
        ((execN E n).dest (aCall s.rt.cur.scAddress v (callGas u gas) dest f args) >>= fun r => callAnswer E r.err) u := by
  obtain ⟨u, hu, hr⟩ := exec_arrives (E := E) (ex := execN E n) hi hm .dest (gas := gas) h (valueOff := some valueOff) hv
  refine ⟨u, hu, hr.trans ?_⟩
  have hsh : sameShard E s s.rt.cur.scAddress dest = true := decide_eq_true hs
  rw [hsh, if_neg (by decide), if_neg (by simp)]
  exact dest_answer (by rw [hu.rt]; exact hi) _

/-- **C60**, `executeOnDestContextByCaller`: the same in the name of the caller of the calling contract; built-in functions are refused. -/
theorem c60_by_caller (hi : s.rt.instance_ = some i) (hm : (s.insts i).mem.length < 2 ^ 31)
    (h : CallAt (s.insts i).mem destOff fOff fLen num lenOff dataOff dest f args) (hv : AmountAt (s.insts i).mem valueOff v)
    (hs : E.hook.shardOf s.world s.rt.cur.scAddress = E.hook.shardOf s.world dest) (hb : isBuiltInCall E f = false) :
    ∃ u, OnlyPaid s u i (s.met.sched.dataCopyPerByte.toNat * totalLength args + (s.met.sched.api .executeOnDestContext).toNat) ∧
      interp E (execN E n) (eei E (.executeOnDestContextByCaller gas destOff valueOff fOff fLen num lenOff dataOff)) s =
        ((execN E n).dest (aCall s.rt.cur.vmInput.caller v (callGas u gas) dest f args) >>= fun r => callAnswer E r.err) u := by
  obtain ⟨u, hu, hr⟩ := exec_arrives (E := E) (ex := execN E n) hi hm .destByCaller (gas := gas) h (valueOff := some valueOff) hv
  refine ⟨u, hu, hr.trans ?_⟩
  have hsh : sameShard E s s.rt.cur.scAddress dest = true := decide_eq_true hs
  rw [hsh, if_neg (by decide), if_neg (by simp [hb])]
  exact dest_answer (by rw [hu.rt]; exact hi) _

/-- **C60**, `executeOnSameContext`. -/
theorem c60_same (hi : s.rt.instance_ = some i) (hm : (s.insts i).mem.length < 2 ^ 31)
    (h : CallAt (s.insts i).mem destOff fOff fLen num lenOff dataOff dest f args) (hv : AmountAt (s.insts i).mem valueOff v)
    (hs : E.hook.shardOf s.world s.rt.cur.scAddress = E.hook.shardOf s.world dest) (hb : isBuiltInCall E f = false) :
    ∃ u, OnlyPaid s u i (s.met.sched.dataCopyPerByte.toNat * totalLength args + (s.met.sched.api .executeOnSameContext).toNat) ∧
      interp E (execN E n) (eei E (.executeOnSameContext gas destOff valueOff fOff fLen num lenOff dataOff)) s =
        ((execN E n).same (aCall s.rt.cur.scAddress v (callGas u gas) dest f args) >>= fun e => callAnswer E e) u := by
  obtain ⟨u, hu, hr⟩ := exec_arrives (E := E) (ex := execN E n) hi hm .same (gas := gas) h (valueOff := some valueOff) hv
  refine ⟨u, hu, hr.trans ?_⟩
  have hsh : sameShard E s s.rt.cur.scAddress dest = true := decide_eq_true hs
  rw [hsh, if_neg (by decide), if_neg (by simp [hb])]
  exact same_answer (by rw [hu.rt]; exact hi) _

/-- **C60**, `delegateExecution`: the value is that of the running call. -/
theorem c60_delegate (hi : s.rt.instance_ = some i) (hm : (s.insts i).mem.length < 2 ^ 31)
    (h : CallAt (s.insts i).mem destOff fOff fLen num lenOff dataOff dest f args)
    (hs : E.hook.shardOf s.world s.rt.cur.scAddress = E.hook.shardOf s.world dest) (hb : isBuiltInCall E f = false) :
    ∃ u, OnlyPaid s u i (s.met.sched.dataCopyPerByte.toNat * totalLength args + (s.met.sched.api .delegateExecution).toNat) ∧
      interp E (execN E n) (eei E (.delegateExecution gas destOff fOff fLen num lenOff dataOff)) s =
        ((execN E n).same (aCall s.rt.cur.scAddress s.rt.cur.vmInput.callValue (callGas u gas) dest f args) >>= fun e => callAnswer E e) u := by
  obtain ⟨u, hu, hr⟩ := exec_arrives (E := E) (ex := execN E n) hi hm .delegate (gas := gas) h (valueOff := none) (v := 0) rfl
  refine ⟨u, hu, hr.trans ?_⟩
  have hsh : sameShard E s s.rt.cur.scAddress dest = true := decide_eq_true hs
  rw [hsh, if_neg (by decide), if_neg (by simp [hb])]
  exact same_answer (by rw [hu.rt]; exact hi) _

/-- the state with the read-only mark set or removed -/
def marked (b : Bool) (s : St χ A) : St χ A := { s with rt := { s.rt with cur := { s.rt.cur with readOnly := b } } }

/-- **C60**, `executeReadOnly`: the call is made while the contract is marked as read-only. -/
theorem c60_read_only (hi : s.rt.instance_ = some i) (hm : (s.insts i).mem.length < 2 ^ 31)
    (h : CallAt (s.insts i).mem destOff fOff fLen num lenOff dataOff dest f args)
    (hs : E.hook.shardOf s.world s.rt.cur.scAddress = E.hook.shardOf s.world dest) (hb : isBuiltInCall E f = false) :
    ∃ u, OnlyPaid s u i (s.met.sched.dataCopyPerByte.toNat * totalLength args + (s.met.sched.api .executeReadOnly).toNat) ∧
      interp E (execN E n) (eei E (.executeReadOnly gas destOff fOff fLen num lenOff dataOff)) s =
        ((execN E n).same (aCall s.rt.cur.scAddress s.rt.cur.vmInput.callValue (callGas u gas) dest f args) >>= fun e t => callAnswer E e (marked false t))
          (marked true u) := by
  obtain ⟨u, hu, hr⟩ := exec_arrives (E := E) (ex := execN E n) hi hm .readOnly (gas := gas) h (valueOff := none) (v := 0) rfl
  refine ⟨u, hu, hr.trans ?_⟩
  have hsh : sameShard E s s.rt.cur.scAddress dest = true := decide_eq_true hs
  rw [hsh, if_neg (by decide), if_neg (by simp [hb])]
  show interp E (execN E n) (.op (.executeReadOnly (aCall s.rt.cur.scAddress s.rt.cur.vmInput.callValue (callGas u gas) dest f args))
    fun e => orFaultK e 1 (.pure 0)) u = _
  generalize aCall _ _ _ _ _ _ = c
  rw [interp_op]
  have hF := (frameEx_execN E n).same c (marked true u)
  have e : runCmd E (execN E n) (.executeReadOnly c) u = M.bind ((execN E n).same c) (fun e t => (.ok e, marked false t)) (marked true u) := rfl
  show M.bind (runCmd E (execN E n) (.executeReadOnly c)) _ u = M.bind ((execN E n).same c) (fun e t => callAnswer E e (marked false t)) (marked true u)
  unfold M.bind at e ⊢
  rw [e]
  generalize (execN E n).same c (marked true u) = q at hF
  obtain ⟨r, t⟩ := q
  cases r with
  | ok e =>
    refine interp_orFaultK (i := i) ?_ e
    show t.rt.instance_ = _
    rw [(hF e t rfl).inst]
    show u.rt.instance_ = _
    rw [hu.rt]; exact hi
  | panic => rfl
  | oof => rfl

/-- **C60**, other shards: the contract's execution fails and no call is made. -/
theorem c60_other_shard (hi : s.rt.instance_ = some i) (hm : (s.insts i).mem.length < 2 ^ 31)
    (h : CallAt (s.insts i).mem destOff fOff fLen num lenOff dataOff dest f args) (hv : AmountAt (s.insts i).mem valueOff v)
    (hs : E.hook.shardOf s.world s.rt.cur.scAddress ≠ E.hook.shardOf s.world dest) (c : EeiCall)
    (hc : c = .executeOnDestContext gas destOff valueOff fOff fLen num lenOff dataOff ∨
      c = .executeOnDestContextByCaller gas destOff valueOff fOff fLen num lenOff dataOff ∨
      c = .executeOnSameContext gas destOff valueOff fOff fLen num lenOff dataOff ∨
      c = .delegateExecution gas destOff fOff fLen num lenOff dataOff ∨ c = .executeReadOnly gas destOff fOff fLen num lenOff dataOff) :
    ∃ u g, OnlyPaid s u i g ∧ interp E ex (eei E c) s = (.ok 1, u.faulted E .syncExecutionNotInSameShard) := by
  have hsh : sameShard E s s.rt.cur.scAddress dest = false := decide_eq_false hs
  have key : ∀ (kind : ExecKind) (vo : Option Int32) (v : Nat), (match vo with | none => v = 0 | some o => AmountAt (s.insts i).mem o v) →
      ∃ u g, OnlyPaid s u i g ∧ interp E ex (exec E kind gas destOff vo fOff fLen num lenOff dataOff) s =
        (.ok 1, u.faulted E .syncExecutionNotInSameShard) := by
    intro kind vo v hv
    obtain ⟨u, hu, hr⟩ := exec_arrives (E := E) (ex := ex) hi hm kind (gas := gas) h hv
    exact ⟨u, _, hu, hr.trans (by rw [hsh, if_pos rfl])⟩
  rcases hc with rfl | rfl | rfl | rfl | rfl
  · exact key _ _ _ hv
  · exact key _ _ _ hv
  · exact key _ _ _ hv
  · exact key _ _ _ rfl
  · exact key _ _ _ rfl

/-! ### The called contract -/

/-- what `sees` looks at -/
def seenOf (s : St χ A) : Addr × Addr × List Bytes × Bytes × Int × List EsdtTransfer × CallType :=
  (s.rt.cur.scAddress, s.rt.cur.vmInput.caller, s.rt.cur.vmInput.args, s.rt.cur.callFunction, s.rt.cur.vmInput.callValue,
    s.rt.cur.vmInput.esdt, s.rt.cur.vmInput.callType)

theorem stepA_cur {ex : Executor χ A} (hF : FrameEx ex) {s t : St χ A} (h : StepA E ex s t) : seenOf t = seenOf s := by
  have hk : ∀ u v : St χ A, v.rt.cur = u.rt.cur → seenOf v = seenOf u := by
    intro u v h; unfold seenOf; rw [h]
  cases h with
  | dest _ i r h _ => exact hk _ _ (hF.dest i _ r _ h).cur
  | same _ i r h _ => exact hk _ _ (hF.same i _ r _ h).cur
  | undo u i r a ci h => exact hk _ u (hF.dest i _ r _ h).cur
  | rt c hc => cases hc <;> rfl
  | _ => rfl

theorem sees_eq {i : CallInput} {s t : St χ A} (h : seenOf t = seenOf s) : sees i t = sees i s := by
  unfold seenOf at h
  simp only [Prod.mk.injEq] at h
  unfold sees; simp only [h]

theorem sees_cur {i : CallInput} {s t : St χ A} (h : t.rt.cur = s.rt.cur) : sees i t = sees i s := by
  unfold sees; rw [h]

theorem belowA_sees {ex : Executor χ A} (hF : FrameEx ex) (i : CallInput) :
    BelowA false E (guardApi E (sees i)) ex ex (fun s => sees i s = true) :=
  ⟨hF.keeps, fun s t h hs => by rw [sees_eq (stepA_cur hF h)]; exact hs, fun _ _ _ => .inr rfl, fun _ _ _ => .inr rfl⟩

theorem below_same {ex : Executor χ A} (hF : FrameEx ex) (api' : A → Free χ A Int64) : Below false E api' ex ex (fun _ => True) :=
  ⟨hF.keeps, fun _ _ _ _ => trivial, fun _ _ _ => .inr rfl, fun _ _ _ => .inr rfl⟩

theorem le_execute_sees {ex : Executor χ A} (hF : FrameEx ex) (i j : CallInput) (hu : j.function ≠ upgradeName) {s : St χ A} (hs : sees i s = true) :
    LeIf false (execute E ex j) (execute (watched E i) ex j) s := by
  have hB := belowA_sees (E := E) hF i
  have hk : ∀ {u v : St χ A}, v.rt.cur = u.rt.cur → sees i u = true → sees i v = true := by
    intro u v h hs; rw [sees_cur h]; exact hs
  unfold execute
  refine le_get (le_ite (fun _ => .inr rfl) (fun _ => ?_))
  refine le_bind (.inr rfl) (fun _ t he => ?_)
  have hI := hB.invA (sim_useGas (E := E) _ s) he hs
  refine le_ite (fun h => absurd h hu) (fun _ => ?_)
  refine le_bind (.inr rfl) (fun r u he => ?_)
  have hI : sees i u = true := by
    simp only [M.lift, Prod.mk.injEq] at he
    exact hk (by rw [← he.2, getSCCode_rt]) hI
  cases r with
  | error e => exact .inr rfl
  | ok code =>
    refine le_bind (.inr rfl) (fun r v he => ?_)
    have hI : sees i v = true := by
      have := Arwen.deductForExecution_rt code u
      rw [he] at this
      exact hk (by rw [this]) hI
    cases r with
    | some e => exact .inr rfl
    | none =>
      refine le_get (le_bind (.inr (by unfold watched; rw [startInstance_withApi E (guardApi E (sees i))])) (fun r w he => ?_))
      have hI : sees i w = true := hk (startInstance_cur he).1 hI
      cases r with
      | some e => exact .inr rfl
      | none =>
        refine le_bind ?_ (fun _ _ _ => .inr rfl)
        unfold callIndirect
        refine le_bind (.inr rfl) (fun r x he => ?_)
        have hI := hB.invA (sim_getFunctionToCall (E := E) w) he hI
        cases r with
        | error e => exact .inr rfl
        | ok f =>
          refine le_callFunction (fun a s hI => ?_) hB f hI
          have h := le_interp hB (E.api a) (fun _ h => ⟨a, h⟩) hI
          unfold LeIf at h ⊢
          have e : interp (E.withApi (guardApi E (sees i))) ex (guardApi E (sees i) a) s
              = interp (E.withApi (guardApi E (sees i))) ex (E.api a) s := by
            simp only [guardApi, interp, hI, if_true]
          rw [e]; exact h

theorem pay_cur {i : CallInput} {s t : St χ A} {r : Option Err} (h : payDest E i s = (.ok r, t)) : t.rt.cur = s.rt.cur := by
  unfold payDest at h
  split at h
  · simp only [M.lift, Prod.mk.injEq] at h
    rw [← h.2, transferValueOnly_rt]
  · cases h; rfl

theorem le_bodyDest_sees {ex : Executor χ A} (hF : FrameEx ex) (i j : CallInput) (hu : j.function ≠ upgradeName) {s : St χ A} (hs : sees i s = true) :
    LeIf false (bodyDest E ex j) (bodyDest (watched E i) ex j) s := by
  rw [bodyDest_run', bodyDest_run']
  refine le_bind (.inr rfl) (fun e t he => ?_)
  have hI : sees i t = true := by
    rw [sees_cur (pay_cur he)]; exact hs
  cases e with
  | some e => exact .inr rfl
  | none =>
    refine le_bind (le_execute_sees hF i j hu hI) (fun r u he => ?_)
    cases r with
    | some e => exact .inr rfl
    | none => exact le_get (le_bind (le_processAsyncInfo (below_same hF _) _ trivial) (fun _ _ _ => .inr rfl))

theorem sees_enterDest (i : CallInput) (s : St χ A) : sees i (enterDestState i s) = true := by
  have e : ∀ u : St χ A, copyTxHashes u i = { i with vm := { i.vm with
      originalTxHash := (copyTxHashes u i).vm.originalTxHash, currentTxHash := (copyTxHashes u i).vm.currentTxHash } } := by
    intro u; unfold copyTxHashes; split <;> rfl
  apply decide_eq_true
  have h := e { s with big := s.big.push.initState, out := s.out.push.censor }
  show (copyTxHashes _ i).recipient = _ ∧ (copyTxHashes _ i).vm.caller = _ ∧ (copyTxHashes _ i).vm.args = _ ∧ (copyTxHashes _ i).function = _ ∧
    (copyTxHashes _ i).vm.callValue = _ ∧ (copyTxHashes _ i).vm.esdt = _ ∧ (copyTxHashes _ i).vm.callType = _
  rw [h]
  exact ⟨rfl, rfl, rfl, rfl, rfl, rfl, rfl⟩

theorem sees_enterSame (i : CallInput) (s : St χ A) : sees i (enterSameState E i s) = true := by
  have e : ∀ u : St χ A, copyTxHashes u i = { i with vm := { i.vm with
      originalTxHash := (copyTxHashes u i).vm.originalTxHash, currentTxHash := (copyTxHashes u i).vm.currentTxHash } } := by
    intro u; unfold copyTxHashes; split <;> rfl
  apply decide_eq_true
  have h := e { s with big := s.big.push, out := s.out.push }
  show (copyTxHashes _ i).recipient = _ ∧ (copyTxHashes _ i).vm.caller = _ ∧ (copyTxHashes _ i).vm.args = _ ∧ (copyTxHashes _ i).function = _ ∧
    (copyTxHashes _ i).vm.callValue = _ ∧ (copyTxHashes _ i).vm.esdt = _ ∧ (copyTxHashes _ i).vm.callType = _
  rw [h]
  exact ⟨rfl, rfl, rfl, rfl, rfl, rfl, rfl⟩

/-- **C60**, the called contract. A guard that stops every API function of the called contract, at any time in its run, at which the
contract could see another caller, other arguments, another function, value or tokens than those of the call, changes nothing. -/
theorem c60_seen {n : Nat} {i : CallInput} {s : St χ A} (hb : E.isBuiltin i.function = false) (hu : i.function ≠ upgradeName)
    (h : (execDest E (execN E n) i s).1 ≠ .oof) : execDest (watched E i) (execN E n) i s = execDest E (execN E n) i s := by
  have hF := frameEx_execN E n
  have hle : LeIf false (execDest E (execN E n) i) (execDest (watched E i) (execN E n) i) s := by
    have hno : LeIf false (destCalled E (execN E n) i) (destCalled (watched E i) (execN E n) i) (St.bcPush E s) := by
      refine le_bind ?_ (fun _ _ _ => .inr rfl)
      unfold execDestNoBuiltin
      refine le_bind (.inr rfl) (fun k u he => ?_)
      rw [enterDest_run] at he
      simp only [Prod.mk.injEq, Res.ok.injEq] at he
      obtain ⟨rfl, rfl⟩ := he
      have hf : (enterDestInput i (St.bcPush E s)).function = i.function := copyTx_fn _ i
      exact le_deferred (le_bodyDest_sees hF i _ (by rw [hf]; exact hu) (sees_enterDest i _)) (fun r t => rfl)
    unfold LeIf
    have hb' : (watched E i).isBuiltin i.function = false := hb
    rw [execDest_run, execDest_run, hb, hb']
    exact hno
  rcases hle with hle | hle
  · exact absurd (stops_false hle) h
  · exact hle.symm

/-- **C60**, the called contract, for calls on the context of the caller. -/
theorem c60_seen_same {n : Nat} {i : CallInput} {s : St χ A} (hu : i.function ≠ upgradeName)
    (h : (execSame E (execN E n) i s).1 ≠ .oof) : execSame (watched E i) (execN E n) i s = execSame E (execN E n) i s := by
  have hF := frameEx_execN E n
  have hle : LeIf false (execSame E (execN E n) i) (execSame (watched E i) (execN E n) i) s := by
    unfold execSame
    refine le_ite (fun _ => .inr rfl) (fun _ => ?_)
    refine le_bind (.inr rfl) (fun k u he => ?_)
    rw [enterSame_run] at he
    simp only [Prod.mk.injEq, Res.ok.injEq] at he
    obtain ⟨rfl, rfl⟩ := he
    have hf : (enterSameInput E i s).function = i.function := copyTx_fn _ i
    refine le_deferred ?_ (fun r t => rfl)
    unfold bodySame
    refine le_bind (.inr rfl) (fun e t he => ?_)
    have hI : sees i t = true := by
      simp only [M.lift, Prod.mk.injEq] at he
      rw [sees_cur (s := enterSameState E i s) (by rw [← he.2, transferValueOnly_rt])]
      exact sees_enterSame i s
    cases e with
    | some e => exact .inr rfl
    | none => exact le_execute_sees hF i _ (by rw [hf]; exact hu) hI
  rcases hle with hle | hle
  · exact absurd (stops_false hle) h
  · exact hle.symm

/-! ### The hypotheses can be met; calls with unreadable arguments -/

/-- a memory with an address, the amount 5, the name of a function, and the arguments [1] and [2, 3] -/
def laidOut : Bytes := Fixture.addr 101 ++ (List.replicate 31 0 ++ [5]) ++ Fixture.f ++ [1, 0, 0, 0, 2, 0, 0, 0] ++ [1, 2, 3]
/-- a contract that returns the number of its arguments -/
def countArgs : Fixture.P := .call .getNumArguments fun n => .call (.smallIntFinish false n) fun _ => .ret
def countEnv : Env Fixture.World EeiCall := Fixture.envWith [([1], Fixture.mod [(Fixture.f, countArgs)])]
def laidOutState : St Fixture.World EeiCall :=
  { Fixture.running laidOut 10000 with
    world := Fixture.node [(Fixture.addr 101, Fixture.contract [1]), (Fixture.addr 100, Fixture.contract [2] (balance := 50))] }

example : laidOutState.rt.instance_ = some 0 ∧ (laidOutState.insts 0).mem.length < 2 ^ 31 ∧
    CallAt (laidOutState.insts 0).mem 0 64 1 2 65 73 (Fixture.addr 101) Fixture.f [[1], [2, 3]] ∧ AmountAt (laidOutState.insts 0).mem 32 5 ∧
    countEnv.hook.shardOf laidOutState.world laidOutState.rt.cur.scAddress = countEnv.hook.shardOf laidOutState.world (Fixture.addr 101) ∧
    isBuiltInCall countEnv Fixture.f = false := by
  refine ⟨rfl, by decide, ⟨rfl, .inr ⟨by decide, by decide, by decide +kernel⟩, by decide, .inr ⟨by decide, by decide, by decide +kernel⟩,
    by decide, .inr ⟨by decide, by decide, by decide +kernel⟩, .inr ⟨by decide, by decide, by decide +kernel⟩⟩,
    ⟨List.replicate 31 0 ++ [5], rfl, .inr ⟨by decide, by decide, by decide +kernel⟩, by decide⟩, by decide +kernel, by decide +kernel⟩

/-- the call arrives with both arguments -/
example : (interp countEnv (execN countEnv 3) (eei countEnv (.executeOnDestContext 1000 0 32 64 1 2 65 73)) laidOutState).1 = .ok 0 ∧
    (interp countEnv (execN countEnv 3) (eei countEnv (.executeOnDestContext 1000 0 32 64 1 2 65 73)) laidOutState).2.out.cur.returnData = [[2]] := by
  decide +kernel

/-- the hypotheses of `c60_seen` -/
example : countEnv.isBuiltin Fixture.f = false ∧ Fixture.f ≠ upgradeName ∧
    (execDest countEnv (execN countEnv 2) (aCall (Fixture.addr 100) 5 1000 (Fixture.addr 101) Fixture.f [[1], [2, 3]]) laidOutState).1 ≠ .oof := by
  refine ⟨by decide +kernel, by decide +kernel, fun h => ?_⟩
  have : (match (execDest countEnv (execN countEnv 2) (aCall (Fixture.addr 100) 5 1000 (Fixture.addr 101) Fixture.f [[1], [2, 3]]) laidOutState).1 with
    | .oof => false | _ => true) = true := by decide +kernel
  rw [h] at this
  cases this

/-- An error while the arguments are read is dropped: a contract that points outside its memory for the lengths of two arguments is not
stopped. The call is made without arguments, and succeeds. -/
theorem c60_unreadable_neg : ∃ (E : Env Fixture.World EeiCall) (s : St Fixture.World EeiCall),
    (s.insts 0).mem.length < 5000 ∧
    let q := interp E (execN E 3) (eei E (.executeOnDestContext 1000 0 32 64 1 2 5000 73)) s
    q.1 = .ok 0 ∧ q.2.curBp = .none ∧ q.2.out.cur.returnData = [[]] := by
  refine ⟨countEnv, laidOutState, ?_⟩
  decide +kernel

end Arwen.Props
