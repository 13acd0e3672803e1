import Verif.Mandos.ExprLemmas
/-!
C41: fixed-width numbers are exact or rejected. C40: value expressions evaluate to the documented bytes.
-/
namespace Arwen.Props
open Arwen.Mandos Arwen.Spec

/-! ### Numbers -/

theorem hexMark_iff (s : Bytes) :
    ((ascii ['0', 'x']).isPrefixOf s || (ascii ['0', 'X']).isPrefixOf s) = true ↔ HexMark s := by
  unfold HexMark
  rcases s with _ | ⟨a, _ | ⟨b, r⟩⟩
  · simp [ascii]
  · simp [ascii]
  · have e1 : (ascii ['0', 'x']).isPrefixOf (a :: b :: r) = ((48 : UInt8) == a && ((120 : UInt8) == b && true)) := rfl
    have e2 : (ascii ['0', 'X']).isPrefixOf (a :: b :: r) = ((48 : UInt8) == a && ((88 : UInt8) == b && true)) := rfl
    rw [e1, e2]
    simp only [Bool.and_true, Bool.or_eq_true, Bool.and_eq_true, beq_iff_eq, List.cons.injEq]
    constructor
    · rintro (⟨rfl, rfl⟩ | ⟨rfl, rfl⟩)
      · exact ⟨r, .inl ⟨rfl, rfl, rfl⟩⟩
      · exact ⟨r, .inr ⟨rfl, rfl, rfl⟩⟩
    · rintro ⟨_, ⟨rfl, rfl, _⟩ | ⟨rfl, rfl, _⟩⟩
      · exact .inl ⟨rfl, rfl⟩
      · exact .inr ⟨rfl, rfl⟩

theorem binMark_iff (s : Bytes) :
    ((ascii ['0', 'b']).isPrefixOf s || (ascii ['0', 'B']).isPrefixOf s) = true ↔ BinMark s := by
  unfold BinMark
  rcases s with _ | ⟨a, _ | ⟨b, r⟩⟩
  · simp [ascii]
  · simp [ascii]
  · have e1 : (ascii ['0', 'b']).isPrefixOf (a :: b :: r) = ((48 : UInt8) == a && ((98 : UInt8) == b && true)) := rfl
    have e2 : (ascii ['0', 'B']).isPrefixOf (a :: b :: r) = ((48 : UInt8) == a && ((66 : UInt8) == b && true)) := rfl
    rw [e1, e2]
    simp only [Bool.and_true, Bool.or_eq_true, Bool.and_eq_true, beq_iff_eq, List.cons.injEq]
    constructor
    · rintro (⟨rfl, rfl⟩ | ⟨rfl, rfl⟩)
      · exact ⟨r, .inl ⟨rfl, rfl, rfl⟩⟩
      · exact ⟨r, .inr ⟨rfl, rfl, rfl⟩⟩
    · rintro ⟨_, ⟨rfl, rfl, _⟩ | ⟨rfl, rfl, _⟩⟩
      · exact .inl ⟨rfl, rfl⟩
      · exact .inr ⟨rfl, rfl⟩

/-- the three forms of `unsignedNumber` -/
theorem unsignedNumber_hex {s : Bytes} (h : HexMark s) : unsignedNumber s =
    match hexDecode (if (s.drop 2).length % 2 = 1 then 48 :: s.drop 2 else s.drop 2) with
    | some bs => .ok bs
    | none => .error .rejected := by
  unfold unsignedNumber
  rw [if_pos ((hexMark_iff s).2 h)]
  rfl

theorem unsignedNumber_bin {s : Bytes} (h : BinMark s) : unsignedNumber s =
    match setString 2 ((ungroup s).drop 2) with
    | some z => .ok (natToBytes z.natAbs)
    | none => .error .rejected := by
  have hx : ¬ HexMark s := by
    rintro ⟨r, rfl | rfl⟩ <;> obtain ⟨_, h | h⟩ := h <;> simp at h
  unfold unsignedNumber
  rw [if_neg (fun e => hx ((hexMark_iff s).1 e)), if_pos ((binMark_iff s).2 h)]
  rfl

theorem unsignedNumber_dec {s : Bytes} (hx : ¬ HexMark s) (hb : ¬ BinMark s) : unsignedNumber s =
    match setString 10 (ungroup s) with
    | some z => if z < 0 then .error .rejected else .ok (natToBytes z.natAbs)
    | none => .error .rejected := by
  unfold unsignedNumber
  rw [if_neg (fun e => hx ((hexMark_iff s).1 e)), if_neg (fun e => hb ((binMark_iff s).1 e))]
  rfl

theorem hexMark_or_bin (s : Bytes) : HexMark s ∨ BinMark s ∨ ¬ HexMark s ∧ ¬ BinMark s := by
  by_cases h : HexMark s
  · exact .inl h
  · by_cases h' : BinMark s
    · exact .inr (.inl h')
    · exact .inr (.inr ⟨h, h'⟩)

theorem binMark_not_hex {s : Bytes} (h : BinMark s) : ¬ HexMark s := by
  rintro ⟨r, rfl | rfl⟩ <;> obtain ⟨_, h | h⟩ := h <;> simp at h

/-- the bytes a number is read as: minimal, unless it is given by hexadecimal digits -/
def IsBytes (s : Bytes) (b : Bytes) : Prop :=
  (HexMark s ∧ 2 * b.length = 2 * ((s.length - 1) / 2)) ∨ (¬ HexMark s ∧ b = natToBytes (bytesToNat b))

theorem unsignedNumber_ok {s b : Bytes} (h : unsignedNumber s = .ok b) : Numeral s (bytesToNat b) ∧ IsBytes s b := by
  rcases hexMark_or_bin s with hx | hb | ⟨hx, hb⟩
  · rw [unsignedNumber_hex hx] at h
    split at h
    · rename_i bs hd
      cases h
      obtain ⟨h1, h2⟩ := hexEven_iff.1 hd
      refine ⟨?_, .inl ⟨hx, ?_⟩⟩
      · obtain ⟨r, rfl | rfl⟩ := hx
        · exact .hex (.inl rfl) h1
        · exact .hex (.inr rfl) h1
      · rw [h2, List.length_drop]
        obtain ⟨r, rfl | rfl⟩ := hx <;> simp only [List.length_cons] <;> omega
    · cases h
  · have hx := binMark_not_hex hb
    rw [unsignedNumber_bin hb] at h
    split at h
    · rename_i z hz
      cases h
      obtain ⟨t, n, neg, ht, hd, rfl⟩ := setString_iff.1 hz
      have e : (if neg = true then -(n : Int) else n).natAbs = n := by cases neg <;> simp
      rw [e, bytesToNat_natToBytes]
      refine ⟨?_, .inr ⟨hx, by rw [bytesToNat_natToBytes]⟩⟩
      obtain ⟨r, rfl | rfl⟩ := hb
      · exact .bin (.inl rfl) ht hd
      · exact .bin (.inr rfl) ht hd
    · cases h
  · rw [unsignedNumber_dec hx hb] at h
    split at h
    · rename_i z hz
      split at h
      · cases h
      · rename_i hn
        cases h
        obtain ⟨t, n, neg, ht, hd, rfl⟩ := setString_iff.1 hz
        have e : (if neg = true then -(n : Int) else n).natAbs = n := by cases neg <;> simp
        rw [e, bytesToNat_natToBytes]
        refine ⟨.dec hx hb ht hd ?_, .inr ⟨hx, by rw [bytesToNat_natToBytes]⟩⟩
        rintro rfl
        simp only [if_true] at hn
        omega
    · cases h

theorem unsignedNumber_numeral {s : Bytes} {n : Nat} (h : Numeral s n) : ∃ b, unsignedNumber s = .ok b ∧ bytesToNat b = n := by
  cases h with
  | hex hs h =>
    rename_i r
    have hx : HexMark s := ⟨r, hs⟩
    have e : s.drop 2 = r := by rcases hs with rfl | rfl <;> rfl
    rw [unsignedNumber_hex hx, e]
    have hz : bytesToNat (copyAlignRight (natToBytes n) ((r.length + 1) / 2)) = n ∧
        (copyAlignRight (natToBytes n) ((r.length + 1) / 2)).length = (r.length + 1) / 2 := by
      have hlt : n < 16 ^ r.length := hexDigits_lt h
      have : (16 : Nat) ^ r.length ≤ 256 ^ ((r.length + 1) / 2) := by
        rw [show (256 : Nat) = 16 ^ 2 from rfl, ← Nat.pow_mul]
        exact Nat.pow_le_pow_right (by decide) (by omega)
      have hl := natToBytes_length_le.2 (Nat.lt_of_lt_of_le hlt this)
      have := copyAlignRight_fits hl
      rw [bytesToNat_natToBytes] at this
      exact ⟨this.2, this.1⟩
    rw [hexEven_iff.2 ⟨by rw [hz.1]; exact h, hz.2⟩]
    exact ⟨_, rfl, hz.1⟩
  | bin hs ht h =>
    rename_i r t neg
    have hb : BinMark s := ⟨r, hs⟩
    have e : (ungroup s).drop 2 = ungroup r := by rcases hs with rfl | rfl <;> rfl
    rw [unsignedNumber_bin hb, e, setString_iff.2 ⟨t, n, neg, ht, h, rfl⟩]
    refine ⟨_, rfl, ?_⟩
    rw [bytesToNat_natToBytes]
    cases neg <;> simp
  | dec hx hb ht h hz =>
    rename_i t neg
    rw [unsignedNumber_dec hx hb, setString_iff.2 ⟨t, n, neg, ht, h, rfl⟩]
    refine ⟨natToBytes n, ?_, bytesToNat_natToBytes n⟩
    cases neg with
    | false =>
      have hn : ¬ ((n : Int) < 0) := by omega
      simp only [Bool.false_eq_true, if_false, hn, Int.natAbs_natCast]
    | true => rw [hz rfl]; rfl
where
  hexDigits_lt {s : Bytes} {n : Nat} (h : HexDigits s n) : n < 16 ^ s.length := by
    induction h with
    | none => decide
    | more hs h ih =>
      rw [List.length_append, List.length_singleton, Nat.pow_succ]
      unfold IsHexDigit at h
      omega

/-- a text stands for at most one number -/
theorem numeral_unique {s : Bytes} {n m : Nat} (h1 : Numeral s n) (h2 : Numeral s m) : n = m := by
  obtain ⟨b, hb, rfl⟩ := unsignedNumber_numeral h1
  obtain ⟨c, hc, rfl⟩ := unsignedNumber_numeral h2
  rw [hb] at hc; cases hc; rfl

theorem unsignedNumber_no_panic (s : Bytes) : unsignedNumber s ≠ .error .panic := by
  unfold unsignedNumber
  dsimp only
  repeat' split
  all_goals (intro h; cases h)

theorem isBytes_fits {s b : Bytes} {w : Nat} (h : IsBytes s b) : b.length ≤ w ↔ FitsIn s (bytesToNat b) w := by
  unfold FitsIn
  rcases h with ⟨hx, hl⟩ | ⟨hx, hb⟩
  · simp only [hx, true_and, not_true_eq_false, false_and, or_false]
    obtain ⟨r, rfl | rfl⟩ := hx <;> simp only [List.length_cons] at hl ⊢ <;> omega
  · simp only [hx, false_and, not_false_eq_true, true_and, false_or]
    rw [← natToBytes_length_le, ← hb]

theorem unsignedFixed_ok {s r : Bytes} {w : Nat} (hw : w ≠ 0) :
    unsignedFixed s w = .ok r ↔ ∃ n, Numeral s n ∧ FitsIn s n w ∧ IsFixed n w r := by
  unfold unsignedFixed
  constructor
  · intro h
    cases hu : unsignedNumber s with
    | error e => rw [hu] at h; cases h
    | ok b =>
      rw [hu] at h
      simp only [if_neg hw] at h
      split at h
      · cases h
      · rename_i hl
        cases h
        obtain ⟨h1, h2⟩ := unsignedNumber_ok hu
        exact ⟨_, h1, (isBytes_fits h2).1 (by omega), copyAlignRight_fits (by omega)⟩
  · rintro ⟨n, hn, hf, hr⟩
    obtain ⟨b, hb, rfl⟩ := unsignedNumber_numeral hn
    have hl := (isBytes_fits (unsignedNumber_ok hb).2).2 hf
    rw [hb]
    simp only [if_neg hw, if_neg (Nat.not_lt.2 hl)]
    have := copyAlignRight_fits hl
    rw [bytes_eq_of_length (this.1.trans hr.1.symm) (this.2.trans hr.2.symm)]

theorem unsignedFixed_no_panic (s : Bytes) (w : Nat) : unsignedFixed s w ≠ .error .panic := by
  unfold unsignedFixed
  have := unsignedNumber_no_panic s
  split
  · rename_i e he; intro h; cases h; exact this he
  · split
    · intro h; cases h
    · split <;> (intro h; cases h)

theorem bytesToNat_ones (k : Nat) (bs : Bytes) :
    bytesToNat (List.replicate k 255 ++ bs) + 256 ^ bs.length = bytesToNat bs + 256 ^ (k + bs.length) := by
  induction k with
  | zero => rw [Nat.zero_add]; rfl
  | succ k ih =>
    rw [List.replicate_succ, List.cons_append, bytesToNat_cons, u8_255, List.length_append, List.length_replicate,
      show k + 1 + bs.length = (k + bs.length) + 1 by omega, Nat.pow_succ]
    omega

/-- the unsigned reading of the two's complement form -/
theorem bytesToNat_twos (bs : Bytes) :
    (bytesToNat bs : Int) = if twosFromBytes bs < 0 then twosFromBytes bs + 256 ^ bs.length else twosFromBytes bs := by
  cases bs with
  | nil => rfl
  | cons b bs =>
    have h1 := bytesToNat_lt (b :: bs)
    have e : ((256 : Int) ^ (bs.length + 1)) = ((256 ^ (bs.length + 1) : Nat) : Int) := by simp
    simp only [List.length_cons] at h1 ⊢
    by_cases hb : 128 ≤ b
    · rw [show twosFromBytes (b :: bs) = (bytesToNat (b :: bs) : Int) - 256 ^ (bs.length + 1) from if_pos hb, e,
        if_pos (by omega)]
      omega
    · rw [show twosFromBytes (b :: bs) = (bytesToNat (b :: bs) : Int) from if_neg hb, if_neg (by omega)]

theorem twos_length_le (z : Int) (w : Nat) : InSignedRange z w ↔ (twosToBytes z).length ≤ w := by
  have hz := twosFromBytes_toBytes z
  have e : ∀ n : Nat, ((256 : Int) ^ n) = ((256 ^ n : Nat) : Int) := by intro n; simp
  unfold InSignedRange
  constructor
  · intro h
    by_cases hw : w = 0
    · subst hw
      have : z = 0 := by simp at h; omega
      subst this
      exact Nat.le_refl _
    rcases Nat.lt_or_ge w (twosToBytes z).length with hlt | hge
    · exfalso
      have hn := twosToBytes_needs z (by omega)
      have hp : (256 : Nat) ^ w ≤ 256 ^ ((twosToBytes z).length - 1) := Nat.pow_le_pow_right (by decide) (by omega)
      rw [e] at h hn
      omega
    · exact hge
  · intro hl
    by_cases h0 : twosToBytes z = []
    · rw [h0] at hz
      have : z = 0 := hz.symm
      subst this
      have : 0 < 256 ^ w := Nat.pow_pos (by decide)
      rw [e]; omega
    · have := twosFromBytes_range _ h0
      have hp : (256 : Nat) ^ (twosToBytes z).length ≤ 256 ^ w := Nat.pow_le_pow_right (by decide) hl
      rw [hz, e] at this
      rw [e]; omega

/-- two's complement of fixed length: exact or rejected -/
theorem twosOfLength_ok {z : Int} {w : Nat} {r : Bytes} :
    twosOfLength z w = .ok r ↔ InSignedRange z w ∧ IsFixedSigned z w r := by
  have hz := twosFromBytes_toBytes z
  have hv := bytesToNat_twos (twosToBytes z)
  rw [hz] at hv
  have e : ∀ n : Nat, ((256 : Int) ^ n) = ((256 ^ n : Nat) : Int) := by intro n; simp
  have fit : (twosToBytes z).length ≤ w → IsFixedSigned z w
      (List.replicate (w - (twosToBytes z).length) (if z < 0 then 255 else 0) ++ twosToBytes z) := by
    intro hl
    refine ⟨by simp only [List.length_append, List.length_replicate]; omega, ?_⟩
    split
    · rename_i hn
      rw [if_pos hn, e] at hv
      have h1 := bytesToNat_ones (w - (twosToBytes z).length) (twosToBytes z)
      rw [Nat.sub_add_cancel hl] at h1
      rw [e]
      omega
    · rename_i hn
      rw [if_neg hn] at hv
      rw [bytesToNat_zeros]; exact hv
  have rng := twos_length_le z w
  unfold twosOfLength
  dsimp only
  constructor
  · intro h
    split at h
    · cases h
    · rename_i hl
      cases h
      exact ⟨rng.2 (by omega), fit (by omega)⟩
  · rintro ⟨h1, h2⟩
    have hl := rng.1 h1
    rw [if_neg (by omega)]
    have h3 := fit hl
    congr 1
    exact bytes_eq_of_length (h3.1.trans h2.1.symm) (by have := h3.2; have := h2.2; omega)

theorem twosOfLength_no_panic (z : Int) (w : Nat) : twosOfLength z w ≠ .error .panic := by
  unfold twosOfLength
  dsimp only
  split <;> (intro h; cases h)

/-! ### C41 -/

theorem interpret_fixedUnsigned (I : Interpreter) {mark s : Bytes} {w : Nat} (hm : FixedUnsigned mark w) (hs : NoBar s) :
    interpretString I (mark ++ s) = unsignedFixed s w ∧ w ≠ 0 := by
  simp only [FixedUnsigned, List.mem_cons, List.not_mem_nil, or_false, Prod.mk.injEq] at hm
  rcases hm with ⟨rfl, rfl⟩ | ⟨rfl, rfl⟩ | ⟨rfl, rfl⟩ | ⟨rfl, rfl⟩
  all_goals
    refine ⟨interpretString_simple (by intro h; cases h) rfl rfl (noBar_append.2 ⟨by unfold NoBar; decide, hs⟩) rfl, by decide⟩

theorem interpret_fixedSigned (I : Interpreter) {mark s : Bytes} {w : Nat} (hm : FixedSigned mark w) (hs : NoBar s) :
    interpretString I (mark ++ s) = number s w ∧ w ≠ 0 := by
  simp only [FixedSigned, List.mem_cons, List.not_mem_nil, or_false, Prod.mk.injEq] at hm
  rcases hm with ⟨rfl, rfl⟩ | ⟨rfl, rfl⟩ | ⟨rfl, rfl⟩ | ⟨rfl, rfl⟩
  all_goals
    refine ⟨interpretString_simple (by intro h; cases h) rfl rfl (noBar_append.2 ⟨by unfold NoBar; decide, hs⟩) rfl, by decide⟩

/-- **`uN:` is exact or rejected.** The result is `r` exactly if the text stands for a number that fits and `r` is its form in N/8
bytes. In every other case the expression is rejected. -/
theorem c41_unsigned (I : Interpreter) {mark s : Bytes} {w : Nat} (hm : FixedUnsigned mark w) (hs : NoBar s) :
    (∀ r, interpretString I (mark ++ s) = .ok r ↔ ∃ n, Numeral s n ∧ FitsIn s n w ∧ IsFixed n w r) ∧
    ((¬ ∃ n, Numeral s n ∧ FitsIn s n w) → interpretString I (mark ++ s) = .error .rejected) := by
  obtain ⟨h, hw⟩ := interpret_fixedUnsigned I hm hs
  rw [h]
  refine ⟨fun r => unsignedFixed_ok hw, fun hn => ?_⟩
  cases hr : unsignedFixed s w with
  | ok r => obtain ⟨n, h1, h2, _⟩ := (unsignedFixed_ok hw).1 hr; exact absurd ⟨n, h1, h2⟩ hn
  | error e =>
    cases e with
    | rejected => rfl
    | panic => exact absurd hr (unsignedFixed_no_panic s w)

theorem decimal_digits (n : Nat) : Digits 10 (decimal n) n := by
  induction n using Nat.strongRecOn with
  | _ n ih =>
    rw [decimal]
    split
    · rename_i h
      refine .one ⟨h, ?_⟩
      rw [UInt8.toNat_ofNat']; omega
    · rename_i h
      have := (ih (n / 10) (by omega)).more (c := UInt8.ofNat (48 + n % 10)) (d := n % 10)
        ⟨by omega, by rw [UInt8.toNat_ofNat']; omega⟩
      rwa [show n / 10 * 10 + n % 10 = n by omega] at this

theorem digits_plain {s : Bytes} {n : Nat} (h : Digits 10 s n) : ¬ HexMark s ∧ ¬ BinMark s ∧ ungroup s = s := by
  have hm := digits_mem h
  refine ⟨?_, ?_, ?_⟩
  · rintro ⟨r, rfl | rfl⟩
    · exact absurd (hm 120 (.tail _ (.head _))).2 (by decide)
    · exact absurd (hm 88 (.tail _ (.head _))).2 (by decide)
  · rintro ⟨r, rfl | rfl⟩
    · exact absurd (hm 98 (.tail _ (.head _))).2 (by decide)
    · exact absurd (hm 66 (.tail _ (.head _))).2 (by decide)
  · unfold ungroup
    rw [List.filter_eq_self]
    intro c hc
    have := hm c hc
    simp only [Bool.and_eq_true, bne_iff_ne, ne_eq]
    constructor
    · rintro rfl; exact absurd this.2 (by decide)
    · rintro rfl; exact absurd this.1 (by decide)

theorem digits_noBar {s : Bytes} {n : Nat} (h : Digits 10 s n) : NoBar s := by
  intro hm
  exact absurd (digits_mem h bar hm).2 (by decide)

/-- **Decimal numbers** are accepted by `uN:` exactly if they are below 2^N. -/
theorem c41_decimal (I : Interpreter) {mark : Bytes} {w : Nat} (hm : FixedUnsigned mark w) (n : Nat) :
    (n < 256 ^ w → ∃ r, interpretString I (mark ++ decimal n) = .ok r ∧ IsFixed n w r) ∧
    (256 ^ w ≤ n → interpretString I (mark ++ decimal n) = .error .rejected) := by
  have hd := decimal_digits n
  obtain ⟨hx, hb, hu⟩ := digits_plain hd
  have hnum : Numeral (decimal n) n := .dec (neg := false) hx hb (by rw [hu]; exact .bare) hd (fun h => by cases h)
  have hbar := digits_noBar hd
  obtain ⟨h1, h2⟩ := c41_unsigned I hm hbar
  constructor
  · intro hlt
    have hl := natToBytes_length_le.2 hlt
    have hf := copyAlignRight_fits hl
    rw [bytesToNat_natToBytes] at hf
    exact ⟨_, (h1 _).2 ⟨n, hnum, .inr ⟨hx, hlt⟩, hf⟩, hf⟩
  · intro hge
    apply h2
    rintro ⟨m, hm', hf⟩
    cases numeral_unique hm' hnum
    rcases hf with ⟨h, _⟩ | ⟨_, h⟩
    · exact hx h
    · omega

/-- **`iN:` with a sign is exact or rejected.** -/
theorem c41_signed (I : Interpreter) {mark s : Bytes} {w : Nat} (hm : FixedSigned mark w) (hs : NoBar s) (minus : Bool) :
    (∀ r, interpretString I (mark ++ (if minus then 45 else 43) :: s) = .ok r ↔
      ∃ n : Nat, Numeral s n ∧ InSignedRange (if minus then -n else n) w ∧ IsFixedSigned (if minus then -n else n) w r) ∧
    ((¬ ∃ n : Nat, Numeral s n ∧ InSignedRange (if minus then -n else n) w) →
      interpretString I (mark ++ (if minus then 45 else 43) :: s) = .error .rejected) := by
  have hb : NoBar ((if minus then 45 else 43) :: s) := by
    intro h
    rcases List.mem_cons.1 h with h | h
    · cases minus <;> exact absurd h (by decide)
    · exact hs h
  obtain ⟨h, hw⟩ := interpret_fixedSigned I hm hb
  rw [h]
  have e : number ((if minus then 45 else 43) :: s) w =
      match unsignedNumber s with
      | .error e => .error e
      | .ok bs => twosOfLength (if minus then -(bytesToNat bs : Int) else bytesToNat bs) w := by
    cases minus <;> (simp only [number]; rw [if_pos (by simp)]; cases unsignedNumber s with
      | error e => rfl
      | ok bs => simp [hw])
  rw [e]
  have iff : ∀ r, (match unsignedNumber s with
      | .error e => .error e
      | .ok bs => twosOfLength (if minus then -(bytesToNat bs : Int) else bytesToNat bs) w) = Except.ok r ↔
      ∃ n : Nat, Numeral s n ∧ InSignedRange (if minus then -n else n) w ∧ IsFixedSigned (if minus then -n else n) w r := by
    intro r
    constructor
    · intro h
      cases hu : unsignedNumber s with
      | error e => rw [hu] at h; cases h
      | ok b => rw [hu] at h; exact ⟨_, (unsignedNumber_ok hu).1, (twosOfLength_ok).1 h⟩
    · rintro ⟨n, hn, h⟩
      obtain ⟨b, hb, rfl⟩ := unsignedNumber_numeral hn
      rw [hb]; exact (twosOfLength_ok).2 h
  refine ⟨iff, fun hn => ?_⟩
  cases hu : unsignedNumber s with
  | error e =>
    cases e with
    | rejected => rfl
    | panic => exact absurd hu (unsignedNumber_no_panic s)
  | ok b =>
    dsimp only
    generalize hz : (if minus then -(bytesToNat b : Int) else bytesToNat b) = z
    cases hr : twosOfLength z w with
    | ok r =>
      have h2 := (twosOfLength_ok).1 hr
      rw [← hz] at h2
      exact absurd ⟨_, (unsignedNumber_ok hu).1, h2.1⟩ hn
    | error e =>
      cases e with
      | rejected => rfl
      | panic => exact absurd hr (twosOfLength_no_panic z w)

/-- **`iN:` without a sign** is read like `uN:`; the result is the two's complement form of the number if the number lies in the
signed range. -/
theorem c41_bare_partial (I : Interpreter) {mark s : Bytes} {w : Nat} (hm : FixedSigned mark w) (hs : NoBar s) {c : UInt8}
    (hc : c ≠ 45 ∧ c ≠ 43) (hbar : c ≠ bar) (r : Bytes) :
    (interpretString I (mark ++ c :: s) = .ok r ↔ ∃ n, Numeral (c :: s) n ∧ FitsIn (c :: s) n w ∧ IsFixed n w r) ∧
    (∀ n : Nat, interpretString I (mark ++ c :: s) = .ok r → Numeral (c :: s) n → InSignedRange n w → IsFixedSigned n w r) := by
  have hb : NoBar (c :: s) := by
    intro h
    cases h with
    | tail _ h => exact hs h
    | head => exact hbar rfl
  obtain ⟨h, hw⟩ := interpret_fixedSigned I hm hb
  have e : number (c :: s) w = unsignedFixed (c :: s) w := by
    simp only [number, hc.1, hc.2, or_self, if_false, if_neg hw]
  rw [h, e]
  refine ⟨unsignedFixed_ok hw, fun n h1 h2 _ => ?_⟩
  obtain ⟨m, hm, _, hf⟩ := (unsignedFixed_ok hw).1 h1
  cases numeral_unique hm h2
  refine ⟨hf.1, ?_⟩
  rw [if_neg (by omega), hf.2]

/-- **`iN:` without a sign accepts numbers outside the signed range**: `i8:255` evaluates to the byte that stands for −1. -/
theorem c41_bare_neg (I : Interpreter) : interpretString I (i8Prefix ++ ascii ['2', '5', '5']) = .ok [255] ∧
    ¬ InSignedRange 255 1 ∧ IsFixedSigned (-1) 1 [255] := by
  refine ⟨?_, ?_, by decide, by decide⟩
  · refine interpretString_simple (by decide) (by decide) (by decide) (by unfold NoBar; decide) ?_
    rfl
  · unfold InSignedRange; decide

/-- **`iN:` without a number panics.** -/
theorem c41_empty_neg (I : Interpreter) {mark : Bytes} {w : Nat} (hm : FixedSigned mark w) :
    interpretString I mark = .error .panic := by
  have := (interpret_fixedSigned I hm (s := []) (by unfold NoBar; decide)).1
  rw [List.append_nil] at this
  rw [this]; rfl

/-- **Hexadecimal digits are not measured by their value**: `u8:0x0001` is rejected although it stands for 1. -/
theorem c41_zeros_neg (I : Interpreter) : interpretString I (u8Prefix ++ ascii ['0', 'x', '0', '0', '0', '1']) = .error .rejected ∧
    Numeral (ascii ['0', 'x', '0', '0', '0', '1']) 1 := by
  refine ⟨?_, ?_⟩
  · refine interpretString_simple (by decide) (by decide) (by decide) (by unfold NoBar; decide) ?_
    rfl
  · have : unsignedNumber (ascii ['0', 'x', '0', '0', '0', '1']) = .ok [0, 1] := rfl
    exact (unsignedNumber_ok this).1

/-- **A minus before binary digits has no effect**: `u8:0b-101` evaluates to 5. -/
theorem c41_binary_neg (I : Interpreter) : interpretString I (u8Prefix ++ ascii ['0', 'b', '-', '1', '0', '1']) = .ok [5] := by
  refine interpretString_simple (by decide) (by decide) (by decide) (by unfold NoBar; decide) ?_
  rfl

end Arwen.Props
