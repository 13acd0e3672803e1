import Verif.Spec.Balances
import Verif.Props.Numbers
/-
C61 (what contracts learn about their call and the chain), continued: balances and tokens.
-/
namespace Arwen.Props
open Arwen Arwen.Eei Arwen.Spec
variable {χ A : Type} {E : Env χ A} {ex : Executor χ A}

theorem inquired_getBalance (a : Addr) (s : St χ A) : Inquired E s (getBalance E a s).2 := by
  have hw : (getBalance E a s).2.world = s.world := by rw [(getBalance_rest (E := E) a s).1]
  refine ⟨(getBalance_rest (E := E) a s).2, fun b => ?_, known_of hw fun b => ?_, (c16_balance a s).2⟩
  · rw [getBalance_noted]; split
    · rename_i h; subst h; rfl
    · rfl
  · rw [getBalance_noted]; split
    · rename_i h; subst h; exact .inr rfl
    · exact .inl rfl

theorem _root_.Arwen.Spec.Inquired.after {s u t : St χ A} {i g : Nat} (h : OnlyPaid s u i g) (hq : Inquired E u t) : Inquired E s t := by
  have ho : u.out = s.out := paid_out h
  have hb : ∀ a, balance E u a = balance E s a := balance_paid h
  have hk : ∀ a, known E u a = known E s a := fun a => by unfold known; rw [ho, h.world]
  refine ⟨by rw [hq.rest, ho], fun a => by rw [hq.accounts, ho], fun a => (hq.known a).trans (hk a), fun a => (hq.balance a).trans (hb a)⟩

section
variable {s : St χ A} {i : Nat} (hi : s.rt.instance_ = some i) (hm : (s.insts i).mem.length + 65537 < 2 ^ 31)
include hi hm

/-- **C61**: the balance of an account as a big integer. -/
theorem c61_big_balance (d : Int32) {off : Int32} {a : Addr} (hl : a.length = 32) (ha : Holds (s.insts i).mem off a) (h0 : 0 ≤ balance E s a) :
    ∃ t, interp E ex (eei E (.bigIntGetExternalBalance off d)) s = (.ok 0, t) ∧ Inquired E s t ∧
      SetTo s { t with out := s.out } i (s.met.sched.api .bigIntGetExternalBalance).toNat d (balance E s a) := by
  obtain ⟨u, hu, hr⟩ := interp_gas (E := E) (ex := ex) hi .bigIntGetExternalBalance (loadK off 32 0 fun a => .op (.getBalance a) fun (b : Int) =>
    putK d b.natAbs (.pure 0))
  rw [interp_loadK_holds (by rw [hu.rt]; exact hi) (by rw [hu.mem]; omega) (by rw [hl]; rfl) (by rw [hu.mem]; exact ha)] at hr
  have hq := inquired_getBalance (E := E) a u
  have hv := (c16_balance (E := E) a u).1
  have hR := (getBalance_rest (E := E) a u).1
  generalize hw : getBalance E a u = q at hq hv hR
  obtain ⟨b, w⟩ := q
  dsimp only at hq hv hR
  have hb : b = balance E s a := hv.trans (balance_paid hu a)
  have h2 := interp_op_ok E ex (.getBalance a) (fun (b : Int) => putK d b.natAbs (.pure 0)) u w b (by
    show (Res.ok (getBalance E a u).1, (getBalance E a u).2) = _; rw [hw]; rfl)
  refine ⟨{ touched w d with big := (touched w d).big.setVal d b.natAbs }, ?_, ?_, ?_⟩
  · exact hr.trans (h2.trans ((interp_bigGet E ex d _ w).trans (interp_bigSet E ex d _ _ _)))
  · have := Inquired.after hu hq
    exact ⟨this.rest, this.accounts, this.known, this.balance⟩
  · have hl1 := Looked.of hu
    have hub : u.big = s.big := by rw [hu.rest]
    have hwb : w.big = s.big := by rw [hR]; exact hub
    have hwo : ({ w with out := s.out } : St χ A) = u := by
      rw [hR, ← paid_out hu]
    refine ⟨u, hu, ?_, ?_, fun k => ?_⟩
    · show ({ ({ w with out := s.out } : St χ A) with big := _ } : St χ A) = _
      rw [hwo]
    · show (w.big.getOne d).2.stack = _
      rw [(getOne_val w.big d d).2.2, hwb]
    · refine (bigVal_set (touched w d) d k _).trans ?_
      rw [bigVal_touched]
      unfold bigVal
      rw [hwb, hb]
      split
      · omega
      · rfl

/-- **C61**: the balance of an account as bytes, the shortest that stand for it. The answer is 0: it does not tell how many there are. -/
theorem c61_balance {off : Int32} (dest : Int32) {a : Addr} (hl : a.length = 32) (ha : Holds (s.insts i).mem off a) (h0 : 0 ≤ balance E s a)
    (h1 : balance E s a < 2 ^ 256) :
    ∃ b, Encodes false (balance E s a) b ∧ b.length ≤ 32 ∧
      (Fits s i dest b → ∃ t, interp E ex (eei E (.getExternalBalance off dest)) s = (.ok 0, t) ∧ Inquired E s t ∧
        Wrote s { t with out := s.out } i (s.met.sched.api .getExternalBalance).toNat dest b) ∧
      ∃ t, interp E ex (eei E (.getExternalBalance off dest)) s = (.ok 0, t) ∧
        (Inquired E s t ∧ Wrote s { t with out := s.out } i (s.met.sched.api .getExternalBalance).toNat dest b ∨ t.curBp = .executionFailed) := by
  obtain ⟨u, hu, hr⟩ := interp_gas (E := E) (ex := ex) hi .getExternalBalance (loadK off 32 0 fun a => .op (.getBalance a) fun (b : Int) =>
    storeEndK dest (absBytes b))
  rw [interp_loadK_holds (by rw [hu.rt]; exact hi) (by rw [hu.mem]; omega) (by rw [hl]; rfl) (by rw [hu.mem]; exact ha)] at hr
  have hq := inquired_getBalance (E := E) a u
  have hv := (c16_balance (E := E) a u).1
  have hR := (getBalance_rest (E := E) a u).1
  generalize hw : getBalance E a u = q at hq hv hR
  obtain ⟨b, w⟩ := q
  dsimp only at hq hv hR
  have hb : b = balance E s a := hv.trans (balance_paid hu a)
  have h2 := interp_op_ok E ex (.getBalance a) (fun (b : Int) => storeEndK dest (absBytes b)) u w b (by
    show (Res.ok (getBalance E a u).1, (getBalance E a u).2) = _; rw [hw]; rfl)
  subst hb
  have hen : Encodes false (balance E s a) (absBytes (balance E s a)) := by
    have := abs_encodes (balance E s a)
    have e : ((balance E s a).natAbs : Int) = balance E s a := by omega
    rw [e] at this; exact this
  have hlen : (absBytes (balance E s a)).length ≤ 32 := Mandos.natToBytes_length_le.2 (by omega)
  have hwi : w.rt.instance_ = some i := by rw [hR]; show u.rt.instance_ = _; rw [hu.rt]; exact hi
  have hwm : (w.insts i).mem = (s.insts i).mem := by rw [hR]; exact hu.mem
  have hwo : ({ w with out := s.out } : St χ A) = u := by rw [hR, ← paid_out hu]
  have hQ := Inquired.after hu hq
  obtain ⟨mem, e, g1, g2, g3⟩ := interp_storeK (E := E) (ex := ex) (s := w) hwi (by rw [hwm]; exact hm) dest
    (data := absBytes (balance E s a)) (by omega) 0 (.pure 0)
  have hrun := hr.trans (h2.trans g1)
  have wrote : e = none → Wrote s { w.modInst i (fun x => { x with mem := mem }) with out := s.out } i (s.met.sched.api .getExternalBalance).toNat dest
      (absBytes (balance E s a)) := by
    intro he
    refine ⟨u, mem, hu, ?_, (g2 he).1, fun j hj => by rw [(g2 he).2 j hj, hwm]⟩
    have : w.insts = u.insts := by rw [hR]
    show ({ ({ w with out := s.out } : St χ A) with insts := fun j => if j = i then { w.insts i with mem := mem } else w.insts j } : St χ A) = _
    rw [hwo, this]
  refine ⟨_, hen, hlen, fun hf => ?_, ?_⟩
  · have he := g3 (by unfold Fits at hf ⊢; rw [hwm]; exact hf)
    rw [he] at hrun
    exact ⟨_, hrun, ⟨hQ.rest, hQ.accounts, hQ.known, hQ.balance⟩, wrote he⟩
  · cases e with
    | none => exact ⟨_, hrun, .inl ⟨⟨hQ.rest, hQ.accounts, hQ.known, hQ.balance⟩, wrote rfl⟩⟩
    | some e => exact ⟨_, hrun, .inr (curBp_faulted E _ e hwi)⟩

/-! ### Tokens -/

/-- the data of a token are those of the node -/
theorem interp_token {addrOff tokOff tokLen : Int32} (nonce : Int64) {a tok : Bytes} (hl : a.length = 32) (ha : Holds (s.insts i).mem addrOff a)
    (ht : BytesAt (s.insts i).mem tokOff tokLen tok) (k : EsdtToken → Eei.P χ A) :
    ∃ u, OnlyPaid s u i (s.met.sched.api .getExternalBalance).toNat ∧
      interp E ex (esdtDataK E addrOff tokOff tokLen nonce k) s = (match E.hook.esdtToken s.world a tok nonce.toUInt64 with
        | .error e => interp E ex (faultK e 0) u
        | .ok d => interp E ex (k d) u) := by
  obtain ⟨u, hu, hr⟩ := interp_gas (E := E) (ex := ex) hi .getExternalBalance (loadK addrOff 32 0 fun a => loadK tokOff tokLen 0 fun t => .ask fun s =>
    match E.hook.esdtToken s.world a t nonce.toUInt64 with
    | .error e => faultK e 0
    | .ok d => k d)
  rw [interp_loadK_holds (by rw [hu.rt]; exact hi) (by rw [hu.mem]; omega) (by rw [hl]; rfl) (by rw [hu.mem]; exact ha),
    interp_loadK_holds (by rw [hu.rt]; exact hi) (by rw [hu.mem]; omega) ht.len (by rw [hu.mem]; exact ht.data), interp_ask, hu.world] at hr
  refine ⟨u, hu, ?_⟩
  cases hk : E.hook.esdtToken s.world a tok nonce.toUInt64 with
  | error e => rw [hk] at hr; exact hr
  | ok d => rw [hk] at hr; exact hr

/-- **C61**: if the node does not know the token, all functions that ask for it fail the execution. -/
theorem c61_no_token {addrOff tokOff tokLen : Int32} (nonce : Int64) {a tok : Bytes} (hl : a.length = 32) (ha : Holds (s.insts i).mem addrOff a)
    (ht : BytesAt (s.insts i).mem tokOff tokLen tok) {e : Err} (he : E.hook.esdtToken s.world a tok nonce.toUInt64 = .error e) (off : Int32) (r : EsdtDest) :
    Refuses E ex (eei E (.getESDTBalance addrOff tokOff tokLen nonce off)) s ∧ Refuses E ex (eei E (.getESDTNFTNameLength addrOff tokOff tokLen nonce)) s ∧
    Refuses E ex (eei E (.getESDTNFTAttributeLength addrOff tokOff tokLen nonce)) s ∧ Refuses E ex (eei E (.getESDTNFTURILength addrOff tokOff tokLen nonce)) s ∧
    Refuses E ex (eei E (.getESDTTokenData addrOff tokOff tokLen nonce r)) s := by
  have key : ∀ k : EsdtToken → Eei.P χ A, Refuses E ex (esdtDataK E addrOff tokOff tokLen nonce k) s := by
    intro k
    obtain ⟨u, hu, hr⟩ := interp_token hi hm (E := E) (ex := ex) nonce hl ha ht k
    have hui : u.rt.instance_ = some i := by rw [hu.rt]; exact hi
    rw [he] at hr
    dsimp only at hr
    rw [interp_faultK E ex e 0 u hui] at hr
    exact ⟨0, _, hr, curBp_faulted E u e hui⟩
  exact ⟨key _, key _, key _, key _, key _⟩

/-- **C61**: how many tokens an account has: bytes in the memory and a big integer. -/
theorem c61_token_balance {addrOff tokOff tokLen : Int32} (nonce : Int64) {a tok : Bytes} (hl : a.length = 32) (ha : Holds (s.insts i).mem addrOff a)
    (ht : BytesAt (s.insts i).mem tokOff tokLen tok) {t : EsdtToken} (he : E.hook.esdtToken s.world a tok nonce.toUInt64 = .ok t) (h0 : 0 ≤ t.value)
    (h1 : t.value < 2 ^ 256) (off d : Int32) :
    (∃ b, Encodes false t.value b ∧ b.length ≤ 32 ∧
      Gives E ex (eei E (.getESDTBalance addrOff tokOff tokLen nonce off)) s i (s.met.sched.api .getExternalBalance).toNat off b (asResult b.length)) ∧
    Sets E ex (eei E (.bigIntGetESDTExternalBalance addrOff tokOff tokLen nonce d)) s i
      ((s.met.sched.api .bigIntGetExternalBalance).toNat + (s.met.sched.api .getExternalBalance).toNat) d t.value 0 := by
  constructor
  · obtain ⟨u, hu, hr⟩ := interp_token hi hm (E := E) (ex := ex) nonce hl ha ht
      (fun d => storeK off (absBytes d.value) 0 (.pure (lenRes (absBytes d.value))))
    rw [he] at hr
    dsimp only at hr
    have hlen : (absBytes t.value).length ≤ 32 := Mandos.natToBytes_length_le.2 (by omega)
    have hen : Encodes false t.value (absBytes t.value) := by
      have := abs_encodes t.value
      have e : (t.value.natAbs : Int) = t.value := by omega
      rw [e] at this; exact this
    rw [lenRes_eq (by omega)] at hr
    exact ⟨_, hen, hlen, gives_store hi hm (by omega) hu hr⟩
  · obtain ⟨w, hw, hr1⟩ := interp_gas (E := E) (ex := ex) hi .bigIntGetExternalBalance
      (esdtDataK E addrOff tokOff tokLen nonce fun t => putK d t.value (.pure 0))
    obtain ⟨u, hu, hr⟩ := interp_token (s := w) (i := i) (by rw [hw.rt]; exact hi) (by rw [hw.mem]; exact hm) (E := E) (ex := ex) nonce hl
      (by rw [hw.mem]; exact ha) ⟨ht.len, by rw [hw.mem]; exact ht.data⟩ (fun t => putK d t.value (.pure 0))
    rw [hw.world, he] at hr
    rw [hw.met] at hu
    exact sets_of (hw.trans hu) (hr1.trans hr)

/-- **C61**: the lengths of the parts of a token. -/
theorem c61_token_lengths {addrOff tokOff tokLen : Int32} (nonce : Int64) {a tok : Bytes} (hl : a.length = 32) (ha : Holds (s.insts i).mem addrOff a)
    (ht : BytesAt (s.insts i).mem tokOff tokLen tok) {t : EsdtToken} (he : E.hook.esdtToken s.world a tok nonce.toUInt64 = .ok t)
    (hb : ∀ m, t.tokenMeta = some m → m.name.length < 2 ^ 31 ∧ m.attributes.length < 2 ^ 31 ∧ ∀ u ∈ m.uris, u.length < 2 ^ 31) :
    Tells E ex (eei E (.getESDTNFTNameLength addrOff tokOff tokLen nonce)) s i (s.met.sched.api .getExternalBalance).toNat (partLength t EsdtMeta.name) ∧
    Tells E ex (eei E (.getESDTNFTAttributeLength addrOff tokOff tokLen nonce)) s i (s.met.sched.api .getExternalBalance).toNat
      (partLength t EsdtMeta.attributes) ∧
    Tells E ex (eei E (.getESDTNFTURILength addrOff tokOff tokLen nonce)) s i (s.met.sched.api .getExternalBalance).toNat (partLength t firstUri) := by
  have key : ∀ f : EsdtToken → Int64, Tells E ex (esdtDataK E addrOff tokOff tokLen nonce fun d => .pure (f d)) s i
      (s.met.sched.api .getExternalBalance).toNat (f t) := by
    intro f
    obtain ⟨u, hu, hr⟩ := interp_token hi hm (E := E) (ex := ex) nonce hl ha ht (fun d => .pure (f d))
    rw [he] at hr
    exact ⟨u, hu, hr⟩
  refine ⟨?_, ?_, ?_⟩
  · have := key (fun d => match d.tokenMeta with | none => 0 | some m => lenRes m.name)
    have e : partLength t EsdtMeta.name = (match t.tokenMeta with | none => 0 | some m => lenRes m.name) := by
      unfold partLength
      cases hm : t.tokenMeta with
      | none => rfl
      | some m => exact (lenRes_eq (hb m hm).1).symm
    rw [e]; exact this
  · have := key (fun d => match d.tokenMeta with | none => 0 | some m => lenRes m.attributes)
    have e : partLength t EsdtMeta.attributes = (match t.tokenMeta with | none => 0 | some m => lenRes m.attributes) := by
      unfold partLength
      cases hm : t.tokenMeta with
      | none => rfl
      | some m => exact (lenRes_eq (hb m hm).2.1).symm
    rw [e]; exact this
  · have := key (fun d => match d.tokenMeta with
      | none => 0
      | some m => match m.uris with | [] => 0 | u :: _ => lenRes u)
    have e : partLength t firstUri = (match t.tokenMeta with
      | none => 0
      | some m => match m.uris with | [] => 0 | u :: _ => lenRes u) := by
      unfold partLength
      cases hm : t.tokenMeta with
      | none => rfl
      | some m =>
        have hu := (hb m hm).2.2
        unfold firstUri
        cases hu' : m.uris with
        | nil => simp [hu']; rfl
        | cons u us => simp [hu']; exact (lenRes_eq (hu u (by rw [hu']; exact List.mem_cons_self))).symm
    rw [e]; exact this

end

/-! ### All the data of a token -/

theorem holds_kept {old mem : Bytes} {x : Int32 × Bytes} (h : Holds old x.1 x.2) (hs : mem.length = old.length)
    (hr : ∀ j, Within x j → byteAt mem j = byteAt old j) : Holds mem x.1 x.2 := by
  rcases h with h | ⟨h1, h2, h3⟩
  · exact .inl h
  · refine .inr ⟨h1, by omega, Eq.trans ?_ h3⟩
    unfold bytesFrom
    refine List.map_congr_left fun j hj => hr _ ?_
    rw [List.mem_range] at hj
    exact ⟨by omega, by omega⟩

theorem _root_.Arwen.Spec.Laid.nil (mem : Bytes) : Laid mem mem [] := ⟨rfl, fun _ x hx => (by cases hx), fun _ _ => rfl⟩

theorem _root_.Arwen.Spec.Laid.append {m0 m1 m2 : Bytes} {l1 l2 : List (Int32 × Bytes)} (h1 : Laid m0 m1 l1) (h2 : Laid m1 m2 l2) : Laid m0 m2 (l1 ++ l2) := by
  refine ⟨h2.size.trans h1.size, fun ha => ?_, fun j hj => ?_⟩
  · obtain ⟨a1, a2, a3⟩ := List.pairwise_append.mp ha
    intro x hx
    rcases List.mem_append.mp hx with hx | hx
    · refine holds_kept (h1.data a1 x hx) h2.size fun j hj => h2.rest j fun y hy hc => a3 x hx y hy j ⟨hj, hc⟩
    · exact h2.data a2 x hx
  · rw [h2.rest j fun x hx => hj x (List.mem_append.mpr (.inr hx)), h1.rest j fun x hx => hj x (List.mem_append.mpr (.inl hx))]

theorem interp_store_laid {s : St χ A} {i : Nat} (hi : s.rt.instance_ = some i) (hm : (s.insts i).mem.length + 65537 < 2 ^ 31) {off : Int32}
    {data : Bytes} (hf : Fits s i off data) (ret : Int64) (k : Eei.P χ A) :
    ∃ mem, interp E ex (storeK off data ret k) s = interp E ex k (s.modInst i fun x => { x with mem := mem }) ∧ Laid (s.insts i).mem mem [(off, data)] := by
  obtain ⟨hf1, hf2⟩ := hf
  have hd : data.length < 2 ^ 31 := by omega
  obtain ⟨e, mem, h1, h2, h3⟩ := c21_host (E := E) s off data hi hm hd
  by_cases h0 : data = []
  · obtain ⟨he, hmem⟩ := h2 h0
    subst he hmem
    refine ⟨_, ?_, rfl, fun _ x hx => .inl (by rw [List.mem_singleton] at hx; rw [hx]; exact h0), fun _ _ => rfl⟩
    unfold storeK
    rw [interp_op_ok E ex (.memStore off data) _ s _ none h1]
    rfl
  · obtain ⟨e', m, g1, g2, g3, g4⟩ := c21_store E.wasm.growOk (s.insts i).mem data off hm hd
    rw [h3 h0] at g1
    simp only [Option.some.injEq, Prod.mk.injEq] at g1
    obtain ⟨r1, r2⟩ := g1
    subst r1 r2
    have hsz : sizeAfter E.wasm.growOk (s.insts i).mem.length off.toInt.toNat data.length = (s.insts i).mem.length := by
      unfold sizeAfter
      rw [if_neg (fun h => by omega)]
    rw [hsz] at g2 g3
    have he : e = none := g2.mpr ⟨hf1, hf2⟩
    subst he
    rw [if_neg (by omega)] at g3
    refine ⟨mem, ?_, g3, fun _ x hx => ?_, fun j hj => ?_⟩
    · unfold storeK
      rw [interp_op_ok E ex (.memStore off data) _ s _ none h1]
      rfl
    · rw [List.mem_singleton] at hx
      subst hx
      have := h3 h0
      exact (holds_of_store hm hd this).1
    · rw [g4, if_neg]
      rintro ⟨-, hc⟩
      exact hj _ List.mem_cons_self hc

/-- putting several data into the memory -/
def storesK (l : List (Int32 × Bytes)) (k : Eei.P χ A) : Eei.P χ A := l.foldr (fun x k => storeK x.1 x.2 0 k) k

theorem interp_stores_laid {i : Nat} (k : Eei.P χ A) : ∀ (l : List (Int32 × Bytes)) {s : St χ A}, s.rt.instance_ = some i →
    (s.insts i).mem.length + 65537 < 2 ^ 31 → (∀ x ∈ l, Fits s i x.1 x.2) →
    ∃ mem, interp E ex (storesK l k) s = interp E ex k (s.modInst i fun x => { x with mem := mem }) ∧ Laid (s.insts i).mem mem l := by
  intro l
  induction l with
  | nil =>
    intro s _ _ _
    refine ⟨(s.insts i).mem, ?_, .nil _⟩
    have : (s.modInst i fun x => { x with mem := (s.insts i).mem }) = s := by
      unfold St.modInst
      cases s
      congr 1
      funext j
      dsimp only
      split
      · rename_i h; subst h; rfl
      · rfl
    rw [this]
    rfl
  | cons x l ih =>
    intro s hi hm hf
    obtain ⟨m1, g1, g2⟩ := interp_store_laid (E := E) (ex := ex) hi hm (hf x List.mem_cons_self) 0 (storesK l k)
    have hmem : ((s.modInst i fun x => { x with mem := m1 }).insts i).mem = m1 := by simp [St.modInst]
    obtain ⟨m2, q1, q2⟩ := ih (s := s.modInst i fun x => { x with mem := m1 }) hi (by rw [hmem, g2.size]; exact hm) (fun y hy => by
      have := hf y (List.mem_cons_of_mem _ hy)
      unfold Fits at this ⊢
      rw [hmem, g2.size]; exact this)
    rw [hmem] at q2
    refine ⟨m2, (g1.trans q1).trans ?_, g2.append q2⟩
    congr 1
    unfold St.modInst
    dsimp only
    congr 1
    funext j
    split
    · rw [if_pos rfl]
    · rfl

/-- a state with other numbers and another memory -/
def refilled (u : St χ A) (i : Nat) (big : BigCtx) (mem : Bytes) : St χ A :=
  { u with big := big, insts := fun j => if j = i then { u.insts i with mem := mem } else u.insts j }

theorem refilled_mem (u : St χ A) (i : Nat) (big : BigCtx) (mem : Bytes) : ((refilled u i big mem).insts i).mem = mem := by
  simp [refilled]

theorem refilled_self (u : St χ A) (i : Nat) : refilled u i u.big (u.insts i).mem = u := by
  unfold refilled
  cases u
  congr 1
  funext j
  dsimp only
  split
  · rename_i h; subst h; rfl
  · rfl

theorem interp_stores_refilled {i : Nat} {u : St χ A} {big : BigCtx} {mem : Bytes} (hi : u.rt.instance_ = some i) (hm : mem.length + 65537 < 2 ^ 31)
    {l : List (Int32 × Bytes)} (hf : ∀ x ∈ l, 0 ≤ x.1.toInt ∧ x.1.toInt.toNat + x.2.length ≤ mem.length) (k : Eei.P χ A) :
    ∃ mem', interp E ex (storesK l k) (refilled u i big mem) = interp E ex k (refilled u i big mem') ∧ Laid mem mem' l := by
  obtain ⟨m, h1, h2⟩ := interp_stores_laid (E := E) (ex := ex) k l (s := refilled u i big mem) (i := i) hi (by rw [refilled_mem]; exact hm) (fun x hx => by
    unfold Fits; rw [refilled_mem]; exact hf x hx)
  rw [refilled_mem] at h2
  refine ⟨m, h1.trans ?_, h2⟩
  congr 1
  unfold St.modInst refilled
  dsimp only
  congr 1
  funext j
  split
  · rw [if_pos rfl]
  · rfl

theorem interp_put_refilled {i : Nat} {u : St χ A} {big : BigCtx} {mem : Bytes} (d : Int32) (v : Int) (k : Eei.P χ A) :
    ∃ big', interp E ex (.op (.bigGet d) fun _ => .op (.bigSet d v) fun _ => k) (refilled u i big mem) = interp E ex k (refilled u i big' mem) ∧
      big'.stack = big.stack ∧ ∀ k, (big'.vals.get? k).getD 0 = if k = d then v else (big.vals.get? k).getD 0 := by
  refine ⟨(big.getOne d).2.setVal d v, ?_, ?_, fun k => ?_⟩
  · exact (interp_bigGet E ex d _ _).trans (interp_bigSet E ex d v _ _)
  · show (big.getOne d).2.stack = _
    rw [(getOne_val big d d).2.2]
  · refine (bigVal_set (touched (refilled u i big mem) d) d k v).trans ?_
    rw [bigVal_touched]
    rfl

section
variable {s : St χ A} {i : Nat} (hi : s.rt.instance_ = some i) (hm : (s.insts i).mem.length + 65537 < 2 ^ 31)
include hi hm

/-- **C61**: all the data of a token at once. The answer is the length of the amount. -/
theorem c61_token_data {addrOff tokOff tokLen : Int32} (nonce : Int64) {a tok : Bytes} (hl : a.length = 32) (ha : Holds (s.insts i).mem addrOff a)
    (ht : BytesAt (s.insts i).mem tokOff tokLen tok) {tk : EsdtToken} (he : E.hook.esdtToken s.world a tok nonce.toUInt64 = .ok tk) (h0 : 0 ≤ tk.value)
    (h1 : tk.value < 2 ^ 256) (r : EsdtDest) (hf : ∀ x ∈ tokenParts r tk, Fits s i x.1 x.2) :
    ∃ u t mem b, OnlyPaid s u i (s.met.sched.api .getExternalBalance).toNat ∧ Encodes false tk.value b ∧
      interp E ex (eei E (.getESDTTokenData addrOff tokOff tokLen nonce r)) s = (.ok (asResult b.length), t) ∧
      t = { u with big := t.big, insts := fun j => if j = i then { u.insts i with mem := mem } else u.insts j } ∧
      t.big.stack = s.big.stack ∧ (∀ k, bigVal t k = tokenNumbers r tk (bigVal s) k) ∧
      Laid (s.insts i).mem mem (tokenParts r tk) := by
  have hlen : (absBytes tk.value).length ≤ 32 := Mandos.natToBytes_length_le.2 (by omega)
  have hen : Encodes false tk.value (absBytes tk.value) := by
    have := abs_encodes tk.value
    have e : (tk.value.natAbs : Int) = tk.value := by omega
    rw [e] at this; exact this
  have hres : lenRes (absBytes tk.value) = asResult (absBytes tk.value).length := lenRes_eq (by omega)
  obtain ⟨u, hu, hr⟩ := interp_token hi hm (E := E) (ex := ex) nonce hl ha ht (fun d =>
    .op (.bigGet r.value) fun _ => .op (.bigSet r.value d.value) fun _ =>
    storeK r.properties d.properties 0 <|
    let done : Eei.P χ A := .pure (lenRes (absBytes d.value))
    match d.tokenMeta with
    | none => done
    | some m =>
      storeK r.hash m.hash 0 <| storeK r.name m.name 0 <| storeK r.attributes m.attributes 0 <|
      storeK r.creator m.creator 0 <|
      .op (.bigGet r.royalties) fun _ => .op (.bigSet r.royalties m.royalties.toNat) fun _ =>
      match m.uris with
      | [] => done
      | u :: _ => storeK r.uris u 0 done)
  rw [he] at hr
  dsimp only at hr
  have hui : u.rt.instance_ = some i := by rw [hu.rt]; exact hi
  have hub : u.big = s.big := by rw [hu.rest]
  have hf' : ∀ x ∈ tokenParts r tk, 0 ≤ x.1.toInt ∧ x.1.toInt.toNat + x.2.length ≤ (s.insts i).mem.length := hf
  rw [← refilled_self u i, hu.mem, hub] at hr
  obtain ⟨b1, p1, p2, p3⟩ := interp_put_refilled (E := E) (ex := ex) (u := u) (i := i) (big := s.big) (mem := (s.insts i).mem) r.value tk.value
    (storeK r.properties tk.properties 0 <|
    let done : Eei.P χ A := .pure (lenRes (absBytes tk.value))
    match tk.tokenMeta with
    | none => done
    | some m =>
      storeK r.hash m.hash 0 <| storeK r.name m.name 0 <| storeK r.attributes m.attributes 0 <|
      storeK r.creator m.creator 0 <|
      .op (.bigGet r.royalties) fun _ => .op (.bigSet r.royalties m.royalties.toNat) fun _ =>
      match m.uris with
      | [] => done
      | u :: _ => storeK r.uris u 0 done)
  have hr := hr.trans p1
  unfold tokenParts at hf' ⊢
  unfold tokenNumbers
  cases hmeta : tk.tokenMeta with
  | none =>
    rw [hmeta] at hr hf'
    dsimp only at hr hf'
    obtain ⟨m1, q1, q2⟩ := interp_stores_refilled (E := E) (ex := ex) (u := u) (i := i) (big := b1) hui hm hf' (.pure (lenRes (absBytes tk.value)))
    have hr := hr.trans q1
    rw [hres] at hr
    exact ⟨u, refilled u i b1 m1, m1, _, hu, hen, hr, rfl, p2, p3, q2⟩
  | some m =>
    rw [hmeta] at hr hf'
    dsimp only at hr hf'
    rw [← List.cons_append] at hf' ⊢
    obtain ⟨m1, q1, q2⟩ := interp_stores_refilled (E := E) (ex := ex) (u := u) (i := i) (big := b1) (mem := (s.insts i).mem) hui hm
      (l := [(r.properties, tk.properties), (r.hash, m.hash), (r.name, m.name), (r.attributes, m.attributes), (r.creator, m.creator)])
      (fun x hx => hf' x (List.mem_append.mpr (.inl hx)))
      (.op (.bigGet r.royalties) fun _ => .op (.bigSet r.royalties m.royalties.toNat) fun _ =>
      match m.uris with
      | [] => .pure (lenRes (absBytes tk.value))
      | u :: _ => storeK r.uris u 0 (.pure (lenRes (absBytes tk.value))))
    obtain ⟨b2, w1, w2, w3⟩ := interp_put_refilled (E := E) (ex := ex) (u := u) (i := i) (big := b1) (mem := m1) r.royalties m.royalties.toNat
      (match m.uris with
      | [] => .pure (lenRes (absBytes tk.value))
      | u :: _ => storeK r.uris u 0 (.pure (lenRes (absBytes tk.value))))
    have hr := (hr.trans q1).trans w1
    obtain ⟨m2, y1, y2⟩ := interp_stores_refilled (E := E) (ex := ex) (u := u) (i := i) (big := b2) (mem := m1) hui (by rw [q2.size]; exact hm)
      (l := (m.uris.head?.map fun u => (r.uris, u)).toList) (fun x hx => by rw [q2.size]; exact hf' x (List.mem_append.mpr (.inr hx)))
      (.pure (lenRes (absBytes tk.value)))
    have hlast : interp E ex (match m.uris with
        | [] => .pure (lenRes (absBytes tk.value))
        | u :: _ => storeK r.uris u 0 (.pure (lenRes (absBytes tk.value)))) (refilled u i b2 m1) = (.ok (lenRes (absBytes tk.value)), refilled u i b2 m2) := by
      refine Eq.trans ?_ y1
      cases m.uris <;> rfl
    have hr := hr.trans hlast
    rw [hres] at hr
    refine ⟨u, refilled u i b2 m2, m2, _, hu, hen, hr, rfl, w2.trans p2, fun k => (w3 k).trans ?_, q2.append y2⟩
    rw [p3]
    rfl

end

/-! ### Entries of the protocol -/

theorem moved_paid {s t : St χ A} {i g : Nat} (h : Moved s t i g) (ho : t.out = s.out) : OnlyPaid s t i g := by
  have := h.paid
  rw [← ho] at this
  exact this

theorem getStorageFrom_node {s : St χ A} {i : Nat} (hi : s.rt.instance_ = some i) (hp : (s.insts i).points.toNat ≤ 2 ^ 63 - 1) {a : Addr} {k : Bytes}
    (hk : k.length < 2 ^ 64) (hr : storageReadable E s a = true) (hn : isReservedKey E k = true) (ho : (E.hook.storageData s.world a k).length < 2 ^ 64) :
    ∃ t, getStorageFromAddress E a k s = (.ok (E.hook.storageData s.world a k), t) ∧
      OnlyPaid s t i (readCost s.met.sched k (E.hook.storageData s.world a k)) := by
  obtain ⟨s1, e1, p1, o1⟩ := useKeyGas_moved hi hp hk
  have hr1 : storageReadable E s1 a = true := by rw [← hr]; simp only [storageReadable, acctOf, p1.sto, p1.world]
  have m1 := p1.met
  have w1 := p1.world
  obtain ⟨t, f1, f2, f3⟩ := useMul_moved (s := s1) (by rw [p1.rt]; exact hi) s1.met.sched.dataCopyPerByte ho
  have hrun : getStorageFromAddress E a k s = (.ok (E.hook.storageData s.world a k), t) := by
    unfold getStorageFromAddress
    simp only [M.bind_eq, M.bind, e1, M.gets, M.get, hr1, hn, Bool.not_true, Bool.false_eq_true, if_false, if_true, w1, f1]
    rfl
  rw [m1] at f2
  exact ⟨t, hrun, moved_paid (p1.trans f2) (f3.trans o1)⟩

theorem getStorageFrom_closed {s : St χ A} {i : Nat} (hi : s.rt.instance_ = some i) (hp : (s.insts i).points.toNat ≤ 2 ^ 63 - 1) {a : Addr} {k : Bytes}
    (hk : k.length < 2 ^ 64) (hr : storageReadable E s a = false) :
    ∃ t, getStorageFromAddress E a k s = (.ok [], t) ∧ OnlyPaid s t i (keyCost s.met.sched k) := by
  obtain ⟨s1, e1, p1, o1⟩ := useKeyGas_moved hi hp hk
  have hr1 : storageReadable E s1 a = false := by rw [← hr]; simp only [storageReadable, acctOf, p1.sto, p1.world]
  have hrun : getStorageFromAddress E a k s = (.ok [], s1) := by
    unfold getStorageFromAddress
    simp only [M.bind_eq, M.bind, e1, M.get, hr1, Bool.not_false, if_true]
    rfl
  exact ⟨s1, hrun, moved_paid p1 o1⟩

theorem paid_readable {s u : St χ A} {i g : Nat} (hu : OnlyPaid s u i g) (a : Addr) : storageReadable E u a = storageReadable E s a := by
  simp only [storageReadable, acctOf, paid_sto hu, hu.world]

section
variable {s : St χ A} {i : Nat} (hi : s.rt.instance_ = some i) (hm : (s.insts i).mem.length + 65537 < 2 ^ 31)
include hi hm

/-- **C63**: an entry of the protocol is always that of the node, and nothing is put down about it. -/
theorem c63_load_protocol {addrOff keyOff keyLen : Int32} (dataOff : Int32) {a k : Bytes} (ha : a.length = 32) (haddr : Holds (s.insts i).mem addrOff a)
    (hk : BytesAt (s.insts i).mem keyOff keyLen k) (hn : E.elrondPrefix <+: k) (ho : (E.hook.storageData s.world a k).length < 2 ^ 31) (hr : MayRead E s a) :
    Gives E ex (eei E (.storageLoadFromAddress addrOff keyOff keyLen dataOff)) s i
      ((s.met.sched.api .storageLoad).toNat + readCost s.met.sched k (E.hook.storageData s.world a k)) dataOff (E.hook.storageData s.world a k)
      (asResult (E.hook.storageData s.world a k).length) := by
  obtain ⟨u, hu, hrun⟩ := interp_key (E := E) (ex := ex) hi hm .storageLoad hk (-1) fun key =>
    loadK addrOff 32 (-1) fun a => .op (.getStorageFromAddress a key) fun (d : Bytes) => storeK dataOff d (-1) (.pure (lenRes d))
  rw [interp_loadK_holds (by rw [hu.rt]; exact hi) (by rw [hu.mem]; omega) (data := a) (by rw [ha]; rfl) (by rw [hu.mem]; exact haddr)] at hrun
  have hkb := bytesAt_bound hk
  obtain ⟨t, h1, h2⟩ := getStorageFrom_node (E := E) (s := u) (by rw [hu.rt]; exact hi) (paid_bounded hu) (a := a) (k := k) (by omega)
    ((paid_readable hu a).trans ((readable_iff s a).mpr hr)) (List.isPrefixOf_iff_prefix.mpr hn) (by rw [hu.world]; omega)
  rw [hu.world] at h1 h2
  rw [hu.met] at h2
  refine gives_store hi hm ho (hu.trans h2) (ret := -1) (hrun.trans ?_)
  rw [← lenRes_eq ho]
  exact interp_op_ok E ex (.getStorageFromAddress a k) (fun (d : Bytes) => storeK dataOff d (-1) (.pure (lenRes d))) u t _ h1

/-- **C61**: the last nonce of a token, which the node stores under a key of the protocol. -/
theorem c61_last_nonce {addrOff tokOff tokLen : Int32} {a tok : Bytes} (hl : a.length = 32) (ha : Holds (s.insts i).mem addrOff a)
    (ht : BytesAt (s.insts i).mem tokOff tokLen tok) (hp : E.elrondPrefix <+: E.nftNoncePrefix) (hpl : E.nftNoncePrefix.length < 2 ^ 31)
    (ho : (E.hook.storageData s.world a (E.nftNoncePrefix ++ tok)).length < 2 ^ 64) :
    ∃ price, Tells E ex (eei E (.getCurrentESDTNFTNonce addrOff tokOff tokLen)) s i price (lastNonce E s a tok).toInt64 ∧
      (s.met.sched.api .storageLoad).toNat ≤ price := by
  obtain ⟨u, hu, hr⟩ := interp_gas (E := E) (ex := ex) hi .storageLoad (loadEK addrOff 32 fun ra =>
    match ra with
    | .error _ => .pure 0
    | .ok a => loadEK tokOff tokLen fun rt =>
      match rt with
      | .error _ => .pure 0
      | .ok t => .op (.getStorageFromAddress a (E.nftNoncePrefix ++ t)) fun (d : Bytes) =>
        .pure (UInt64.ofNat (bytesToNat d)).toInt64)
  have hui : u.rt.instance_ = some i := by rw [hu.rt]; exact hi
  rw [interp_loadEK_holds hui (by rw [hu.mem]; omega) (data := a) (by rw [hl]; rfl) (by rw [hu.mem]; exact ha)] at hr
  dsimp only at hr
  rw [interp_loadEK_holds hui (by rw [hu.mem]; omega) ht.len (by rw [hu.mem]; exact ht.data)] at hr
  dsimp only at hr
  have hkb := bytesAt_bound ht
  have hkl : (E.nftNoncePrefix ++ tok).length < 2 ^ 64 := by rw [List.length_append]; omega
  unfold lastNonce
  by_cases hc : MayRead E s a
  · rw [if_pos hc]
    obtain ⟨t, h1, h2⟩ := getStorageFrom_node (E := E) (s := u) hui (paid_bounded hu) (a := a) hkl
      ((paid_readable hu a).trans ((readable_iff s a).mpr hc)) (List.isPrefixOf_iff_prefix.mpr (hp.trans (List.prefix_append _ _))) (by rw [hu.world]; exact ho)
    rw [hu.world] at h1
    refine ⟨_, ⟨t, hu.trans h2, hr.trans ?_⟩, Nat.le_add_right _ _⟩
    exact interp_op_ok E ex (.getStorageFromAddress a _) (fun (d : Bytes) => .pure (UInt64.ofNat (bytesToNat d)).toInt64) u t _ h1
  · rw [if_neg hc]
    have h : storageReadable E s a = false := by
      cases hc' : storageReadable E s a with
      | false => rfl
      | true => exact absurd ((readable_iff s a).mp hc') hc
    obtain ⟨t, h1, h2⟩ := getStorageFrom_closed (E := E) (s := u) hui (paid_bounded hu) (a := a) hkl ((paid_readable hu a).trans h)
    refine ⟨_, ⟨t, hu.trans h2, hr.trans ?_⟩, Nat.le_add_right _ _⟩
    exact interp_op_ok E ex (.getStorageFromAddress a _) (fun (d : Bytes) => .pure (UInt64.ofNat (bytesToNat d)).toInt64) u t _ h1

end

/-! ### The hypotheses can be met; what may surprise -/

/-- a node that knows one token -/
def knownEnv : Env Fixture.World EeiCall :=
  { Fixture.env0 with hook := { Fixture.env0.hook with
      esdtToken := fun _ _ t _ => if t = [84, 75] then .ok ⟨258, [1], some ⟨[65, 66], [67], 3, [68], [[69, 70]], [71, 72, 73]⟩⟩ else .error (.hook 1) } }

/-- a memory with an address and the identifier of a token -/
def curious : St Fixture.World EeiCall := Fixture.running (Fixture.addr 1 ++ [84, 75] ++ List.replicate 64 0) 10000

/-- where the data of the token shall go -/
def places : EsdtDest := ⟨0, 40, 44, 48, 52, 56, 1, 60⟩

example : curious.rt.instance_ = some 0 ∧ (curious.insts 0).mem.length + 65537 < 2 ^ 31 ∧ (Fixture.addr 1).length = 32 ∧
    Holds (curious.insts 0).mem 0 (Fixture.addr 1) ∧ BytesAt (curious.insts 0).mem 32 2 [84, 75] ∧
    (∃ tk, knownEnv.hook.esdtToken curious.world (Fixture.addr 1) [84, 75] (0 : Int64).toUInt64 = .ok tk ∧ 0 < tk.value ∧ tk.value < 2 ^ 256 ∧
      (∀ x ∈ tokenParts places tk, Fits curious 0 x.1 x.2) ∧ (tokenParts places tk).length = 6 ∧ Apart (tokenParts places tk)) ∧
    knownEnv.elrondPrefix <+: knownEnv.nftNoncePrefix := by
  refine ⟨rfl, by decide +kernel, by decide +kernel, .inr ⟨by decide +kernel, by decide +kernel, by decide +kernel⟩,
    ⟨rfl, .inr ⟨by decide +kernel, by decide +kernel, by decide +kernel⟩⟩, ⟨⟨258, [1], some ⟨[65, 66], [67], 3, [68], [[69, 70]], [71, 72, 73]⟩⟩, rfl, by decide +kernel, by decide +kernel, ?_, rfl, ?_⟩,
    ⟨[110, 111, 110, 99, 101], rfl⟩⟩
  · unfold Fits; decide +kernel
  · have : (tokenParts places ⟨258, [1], some ⟨[65, 66], [67], 3, [68], [[69, 70]], [71, 72, 73]⟩⟩).Pairwise fun x y =>
        x.1.toInt.toNat + x.2.length ≤ y.1.toInt.toNat ∨ y.1.toInt.toNat + y.2.length ≤ x.1.toInt.toNat := by decide +kernel
    exact this.imp fun {x y} h j hj => by
      obtain ⟨⟨h1, h2⟩, h3, h4⟩ := hj
      omega

/-- what the contract gets -/
example : let q := interp knownEnv (execN knownEnv 3) (eei knownEnv (.getESDTTokenData 0 32 2 0 places)) curious
    q.1 = .ok 2 ∧ q.2.big.vals.get? 0 = some 258 ∧ q.2.big.vals.get? 1 = some 3 ∧
    bytesFrom (q.2.insts 0).mem 40 22 = [1, 0, 0, 0, 68, 0, 0, 0, 65, 66, 0, 0, 71, 72, 73, 0, 67, 0, 0, 0, 69, 70] := by decide +kernel

/-- `getExternalBalance` does not tell how many bytes it has written, and it does not clear the rest of the 32 bytes: a contract that has asked for
a larger balance before reads a wrong one. -/
theorem c61_balance_neg : ∃ (s : St Fixture.World EeiCall) (a : Addr), s.rt.instance_ = some 0 ∧ Holds (s.insts 0).mem 0 a ∧
    0 < balance Fixture.env0 s a ∧
    let q := interp Fixture.env0 (execN Fixture.env0 3) (eei Fixture.env0 (.getExternalBalance 0 32)) s
    q.1 = .ok 0 ∧ q.2.curBp = .none ∧ bytesToNat (bytesFrom (q.2.insts 0).mem 32 32) ≠ (balance Fixture.env0 s a).natAbs :=
  ⟨{ Fixture.running (Fixture.addr 1 ++ List.replicate 32 7) 10000 with world := [{ accts := AMap.empty.insert (Fixture.addr 1) (Fixture.contract [] 1000) }] }, Fixture.addr 1, rfl, .inr ⟨by decide +kernel, by decide +kernel, by decide +kernel⟩,
    by decide +kernel⟩

/-- `getCurrentESDTNFTNonce` answers 0 if the token lies outside the memory, and the execution goes on. -/
theorem c61_last_nonce_neg : ∃ (s : St Fixture.World EeiCall), s.rt.instance_ = some 0 ∧
    let q := interp Fixture.env0 (execN Fixture.env0 3) (eei Fixture.env0 (.getCurrentESDTNFTNonce 0 (-1) 2)) s
    q.1 = .ok 0 ∧ q.2.curBp = .none :=
  ⟨curious, by decide +kernel⟩

end Arwen.Props
