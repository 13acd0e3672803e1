import Verif.Spec.Expr
/-!
Lemmas about the number forms, the split at a character and the prefixes of expressions.
-/
namespace Arwen.Mandos
open Arwen.Spec

/-! ### Digits -/

theorem digitOf_iff {base : Nat} {c : UInt8} {d : Nat} : digitOf base c = some d ↔ IsDigit base c d := by
  unfold digitOf IsDigit
  split
  · rw [Option.some_inj]; omega
  · constructor
    · intro h; cases h
    · omega

theorem digits_scan {base : Nat} {s r : Bytes} {n m : Nat} (h : Digits base s n) (hr : scanDigits base n r = some m) :
    Digits base (s ++ r) m := by
  induction r generalizing s n with
  | nil => cases hr; rw [List.append_nil]; exact h
  | cons c cs ih =>
    simp only [scanDigits] at hr
    cases hd : digitOf base c with
    | none => rw [hd] at hr; cases hr
    | some d =>
      rw [hd] at hr
      have := ih (h.more (digitOf_iff.1 hd)) hr
      rwa [List.append_assoc] at this

theorem scanDigits_append (base : Nat) (s r : Bytes) (n m : Nat) (h : scanDigits base n s = some m) :
    scanDigits base n (s ++ r) = scanDigits base m r := by
  induction s generalizing n with
  | nil => cases h; rfl
  | cons c cs ih =>
    simp only [scanDigits, List.cons_append] at h ⊢
    cases hd : digitOf base c with
    | none => rw [hd] at h; cases h
    | some d => rw [hd] at h; exact ih _ h

theorem scan_digits {base : Nat} {s : Bytes} {n : Nat} (h : Digits base s n) : scanDigits base 0 s = some n := by
  induction h with
  | one h => simp only [scanDigits, digitOf_iff.2 h, Nat.zero_mul, Nat.zero_add]
  | more hs h ih => rw [scanDigits_append _ _ _ _ _ ih]; simp only [scanDigits, digitOf_iff.2 h]

theorem digits_ne_nil {base : Nat} {s : Bytes} {n : Nat} (h : Digits base s n) : s ≠ [] := by cases h <;> simp

theorem scanNat_iff {base : Nat} {s : Bytes} {n : Nat} : scanNat base s = some n ↔ Digits base s n := by
  constructor
  · intro h
    unfold scanNat at h
    split at h
    · cases h
    · cases s with
      | nil => contradiction
      | cons c cs =>
        simp only [scanDigits] at h
        cases hd : digitOf base c with
        | none => rw [hd] at h; cases h
        | some d =>
          rw [hd] at h
          simp only [Nat.zero_mul, Nat.zero_add] at h
          exact digits_scan (s := [c]) (.one (digitOf_iff.1 hd)) h
  · intro h
    unfold scanNat
    rw [if_neg (digits_ne_nil h)]
    exact scan_digits h

theorem digits_mem {base : Nat} {s : Bytes} {n : Nat} (h : Digits base s n) : ∀ c ∈ s, 48 ≤ c.toNat ∧ c.toNat < 48 + base := by
  induction h with
  | one h => intro c hc; cases List.mem_singleton.1 hc; unfold IsDigit at h; omega
  | more hs h ih =>
    intro c hc
    rcases List.mem_append.1 hc with hc | hc
    · exact ih c hc
    · cases List.mem_singleton.1 hc; unfold IsDigit at h; omega

/-- what `SetString` reads -/
theorem setString_iff {base : Nat} {s : Bytes} {z : Int} :
    setString base s = some z ↔ ∃ t n neg, SignedText s t neg ∧ Digits base t n ∧ z = if neg then - (n : Int) else n := by
  constructor
  · intro h
    cases s with
    | nil => cases h
    | cons c cs =>
      simp only [setString] at h
      split at h
      · rename_i hc; subst hc
        cases hs : scanNat base cs with
        | none => rw [hs] at h; cases h
        | some n => rw [hs] at h; cases h; exact ⟨cs, n, true, .minus, scanNat_iff.1 hs, rfl⟩
      · split at h
        · rename_i hc; subst hc
          cases hs : scanNat base cs with
          | none => rw [hs] at h; cases h
          | some n => rw [hs] at h; cases h; exact ⟨cs, n, false, .plus, scanNat_iff.1 hs, rfl⟩
        · cases hs : scanNat base (c :: cs) with
          | none => rw [hs] at h; cases h
          | some n => rw [hs] at h; cases h; exact ⟨c :: cs, n, false, .bare, scanNat_iff.1 hs, rfl⟩
  · rintro ⟨t, n, neg, ht, hd, rfl⟩
    cases ht with
    | plus => simp only [setString, scanNat_iff.2 hd]; rfl
    | minus => simp only [setString, scanNat_iff.2 hd]; rfl
    | bare =>
      cases s with
      | nil => exact absurd rfl (digits_ne_nil hd)
      | cons c cs =>
        have hc := digits_mem hd c (.head _)
        have h1 : c ≠ 45 := by rintro rfl; exact absurd hc.1 (by decide)
        have h2 : c ≠ 43 := by rintro rfl; exact absurd hc.1 (by decide)
        simp only [setString, if_neg h1, if_neg h2, scanNat_iff.2 hd]; rfl

/-! ### Hexadecimal digits -/

theorem hexVal_iff (c : UInt8) (x : UInt8) : hexVal c = some x ↔ IsHexDigit c x.toNat := by
  have h : ∀ c : UInt8, (∀ x : UInt8, hexVal c = some x → IsHexDigit c x.toNat) ∧
      (∀ d : Fin 16, (d.val < 10 ∧ c.toNat = 48 + d.val ∨ 10 ≤ d.val ∧ (c.toNat = 87 + d.val ∨ c.toNat = 55 + d.val)) →
        hexVal c = some (UInt8.ofNat d.val)) := by
    intro c
    constructor
    · intro x hx
      have key : ∀ c : UInt8, (hexVal c).isSome = true →
          ((hexVal c).getD 0).toNat < 10 ∧ c.toNat = 48 + ((hexVal c).getD 0).toNat ∨
              10 ≤ ((hexVal c).getD 0).toNat ∧ ((hexVal c).getD 0).toNat < 16 ∧
                (c.toNat = 87 + ((hexVal c).getD 0).toNat ∨ c.toNat = 55 + ((hexVal c).getD 0).toNat) := by
        apply forall_uint8; decide +kernel
      have := key c
      rw [hx] at this
      exact this rfl
    · revert c; apply forall_uint8; decide +kernel
  constructor
  · exact (h c).1 x
  · intro hx
    have hlt : x.toNat < 16 := by unfold IsHexDigit at hx; omega
    have := (h c).2 ⟨x.toNat, hlt⟩ (by unfold IsHexDigit at hx; simp only; omega)
    rw [this]; simp

/-- hexadecimal digits after the number `n` -/
def scanHex : Nat → Bytes → Option Nat
  | n, [] => some n
  | n, c :: cs =>
    match hexVal c with
    | some d => scanHex (n * 16 + d.toNat) cs
    | none => none

theorem scanHex_append (s r : Bytes) (n m : Nat) (h : scanHex n s = some m) : scanHex n (s ++ r) = scanHex m r := by
  induction s generalizing n with
  | nil => cases h; rfl
  | cons c cs ih =>
    simp only [scanHex, List.cons_append] at h ⊢
    cases hd : hexVal c with
    | none => rw [hd] at h; cases h
    | some d => rw [hd] at h; exact ih _ h

theorem hexDigits_scan {s r : Bytes} {n m : Nat} (h : HexDigits s n) (hr : scanHex n r = some m) : HexDigits (s ++ r) m := by
  induction r generalizing s n with
  | nil => cases hr; rw [List.append_nil]; exact h
  | cons c cs ih =>
    simp only [scanHex] at hr
    cases hd : hexVal c with
    | none => rw [hd] at hr; cases hr
    | some d =>
      rw [hd] at hr
      have := ih (h.more ((hexVal_iff _ _).1 hd)) hr
      rwa [List.append_assoc] at this

theorem scanHex_iff {s : Bytes} {n : Nat} : scanHex 0 s = some n ↔ HexDigits s n := by
  constructor
  · intro h; exact hexDigits_scan (s := []) .none h
  · intro h
    induction h with
    | none => rfl
    | @more s n c d hs h ih =>
      rw [scanHex_append _ _ _ _ ih]
      have hd : d < 16 := by unfold IsHexDigit at h; omega
      have e : (UInt8.ofNat d).toNat = d := by
        rw [UInt8.toNat_ofNat']; omega
      have hv := (hexVal_iff c (UInt8.ofNat d)).2 (by rw [e]; exact h)
      simp only [scanHex, hv, e]

theorem hexByte_toNat {x y : UInt8} {a b : UInt8} (ha : hexVal a = some x) (hb : hexVal b = some y) :
    (x * 16 + y).toNat = x.toNat * 16 + y.toNat := by
  have h1 := (hexVal_iff _ _).1 ha
  have h2 := (hexVal_iff _ _).1 hb
  unfold IsHexDigit at h1 h2
  rw [UInt8.toNat_add, UInt8.toNat_mul]
  rw [show UInt8.toNat 16 = 16 from rfl]
  omega

theorem scanHex_hexDecode : ∀ (s : Bytes) (bs : Bytes) (n : Nat), hexDecode s = some bs →
    scanHex n s = some (n * 256 ^ bs.length + bytesToNat bs) ∧ s.length = 2 * bs.length
  | [], bs, n, h => by cases h; exact ⟨by simp [scanHex], rfl⟩
  | [_], _, _, h => by cases h
  | a :: b :: rest, bs, n, h => by
    simp only [hexDecode] at h
    cases ha : hexVal a with
    | none => rw [ha] at h; cases h
    | some x =>
      cases hb : hexVal b with
      | none => rw [ha, hb] at h; cases h
      | some y =>
        cases hr : hexDecode rest with
        | none => rw [ha, hb, hr] at h; cases h
        | some r =>
          rw [ha, hb, hr] at h
          cases h
          have ih := scanHex_hexDecode rest r ((n * 16 + x.toNat) * 16 + y.toNat) hr
          refine ⟨?_, by simp only [List.length_cons, ih.2]; omega⟩
          simp only [scanHex, ha, hb, ih.1, bytesToNat_cons, List.length_cons, hexByte_toNat ha hb, Nat.pow_succ]
          congr 1
          generalize 256 ^ r.length = p
          generalize x.toNat = x
          generalize y.toNat = y
          have e : ((n * 16 + x) * 16 + y) = n * 256 + (x * 16 + y) := by omega
          rw [e, Nat.add_mul, Nat.mul_assoc, Nat.mul_comm 256 p, Nat.add_assoc]

theorem hexDecode_of_scan : ∀ (s : Bytes) (n m : Nat), scanHex n s = some m → s.length % 2 = 0 → ∃ bs, hexDecode s = some bs
  | [], _, _, _, _ => ⟨[], rfl⟩
  | [_], _, _, _, h => by simp at h
  | a :: b :: rest, n, m, h, he => by
    simp only [scanHex] at h
    cases ha : hexVal a with
    | none => rw [ha] at h; cases h
    | some x =>
      cases hb : hexVal b with
      | none => rw [ha] at h; simp only [hb] at h; cases h
      | some y =>
        rw [ha] at h
        simp only [hb] at h
        obtain ⟨r, hr⟩ := hexDecode_of_scan rest _ m h (by simp only [List.length_cons] at he; omega)
        exact ⟨(x * 16 + y) :: r, by simp only [hexDecode, ha, hb, hr]; rfl⟩

/-- the bytes of hexadecimal digits, with a zero before an odd number of them -/
theorem hexEven_iff {h bs : Bytes} : hexDecode (if h.length % 2 = 1 then 48 :: h else h) = some bs ↔
    HexDigits h (bytesToNat bs) ∧ bs.length = (h.length + 1) / 2 := by
  have h48 : hexVal 48 = some 0 := by decide
  have key : ∀ n, scanHex 0 h = some n ↔ scanHex 0 (if h.length % 2 = 1 then 48 :: h else h) = some n := by
    intro n
    split
    · rw [show scanHex 0 (48 :: h) = scanHex 0 h by simp only [scanHex, h48]; rfl]
    · exact Iff.rfl
  have hlen : (if h.length % 2 = 1 then 48 :: h else h).length = 2 * ((h.length + 1) / 2) := by
    split
    · rw [List.length_cons]; omega
    · omega
  constructor
  · intro hd
    have := scanHex_hexDecode _ _ 0 hd
    rw [Nat.zero_mul, Nat.zero_add, ← key] at this
    exact ⟨scanHex_iff.1 this.1, by omega⟩
  · rintro ⟨hd, hl⟩
    have hs := (key _).1 (scanHex_iff.2 hd)
    obtain ⟨r, hr⟩ := hexDecode_of_scan _ _ _ hs (by rw [hlen]; omega)
    have h2 := scanHex_hexDecode _ _ 0 hr
    rw [hs, Nat.zero_mul, Nat.zero_add, Option.some_inj] at h2
    rw [hr]
    congr 1
    have hlr : r.length = bs.length := by omega
    exact bytes_eq_of_length hlr h2.1.symm
where
  bytes_eq_of_length : ∀ {a b : Bytes}, a.length = b.length → bytesToNat a = bytesToNat b → a = b
    | [], [], _, _ => rfl
    | [], _ :: _, h, _ => by cases h
    | _ :: _, [], h, _ => by cases h
    | x :: a, y :: b, hl, hv => by
      have hl' : a.length = b.length := by simpa using hl
      rw [bytesToNat_cons, bytesToNat_cons, hl'] at hv
      have h1 := bytesToNat_lt a
      have h2 := bytesToNat_lt b
      rw [hl'] at h1
      have hxy : x.toNat = y.toNat := by
        have e1 : (x.toNat * 256 ^ b.length + bytesToNat a) / 256 ^ b.length = x.toNat := by
          rw [Nat.mul_comm, Nat.mul_add_div (Nat.pow_pos (by decide)), Nat.div_eq_of_lt h1, Nat.add_zero]
        have e2 : (y.toNat * 256 ^ b.length + bytesToNat b) / 256 ^ b.length = y.toNat := by
          rw [Nat.mul_comm, Nat.mul_add_div (Nat.pow_pos (by decide)), Nat.div_eq_of_lt h2, Nat.add_zero]
        rw [← e1, ← e2, hv]
      rw [hxy] at hv
      rw [UInt8.toNat_inj.1 hxy, bytes_eq_of_length hl' (by omega)]

theorem bytes_eq_of_length {a b : Bytes} (h : a.length = b.length) (hv : bytesToNat a = bytesToNat b) : a = b :=
  hexEven_iff.bytes_eq_of_length h hv

/-! ### The bytes of a number -/

theorem natToBytes_length_le {n w : Nat} : (natToBytes n).length ≤ w ↔ n < 256 ^ w := by
  constructor
  · intro h
    have h1 := bytesToNat_lt (natToBytes n)
    rw [bytesToNat_natToBytes] at h1
    exact Nat.lt_of_lt_of_le h1 (Nat.pow_le_pow_right (by decide) h)
  · intro h
    cases hb : natToBytes n with
    | nil => exact Nat.zero_le _
    | cons b bs =>
      have hv := bytesToNat_natToBytes n
      have hh := natToBytes_head n b (by rw [hb]; rfl)
      rw [hb] at hv
      have hge := bytesToNat_ge b bs
      have hb1 : 1 ≤ b.toNat := by
        rcases Nat.eq_zero_or_pos b.toNat with h | h
        · exact absurd (UInt8.toNat_inj.1 (by simpa using h)) hh
        · exact h
      have h1 := Nat.mul_le_mul_right (256 ^ bs.length) hb1
      rw [Nat.one_mul] at h1
      have h2 : 256 ^ bs.length < 256 ^ w := by omega
      have h3 := (Nat.pow_lt_pow_iff_right (by decide : 1 < 256)).1 h2
      simp only [List.length_cons]; omega

theorem bytesToNat_zeros (k : Nat) (bs : Bytes) : bytesToNat (List.replicate k 0 ++ bs) = bytesToNat bs := by
  induction k with
  | zero => rfl
  | succ k ih =>
    rw [List.replicate_succ, List.cons_append, bytesToNat_cons, ih]
    have : UInt8.toNat 0 = 0 := rfl
    rw [this, Nat.zero_mul, Nat.zero_add]

theorem copyAlignRight_fits {bs : Bytes} {w : Nat} (h : bs.length ≤ w) :
    (copyAlignRight bs w).length = w ∧ bytesToNat (copyAlignRight bs w) = bytesToNat bs := by
  unfold copyAlignRight
  have e : bs.length - w = 0 := by omega
  rw [e, List.drop_zero]
  exact ⟨by simp only [List.length_append, List.length_replicate]; omega, bytesToNat_zeros _ _⟩

/-! ### Splitting -/

theorem splitOn_none {sep : UInt8} {s : Bytes} (h : sep ∉ s) : splitOn sep s = [s] := by
  induction s with
  | nil => rfl
  | cons c cs ih =>
    have hc : c ≠ sep := fun e => h (e ▸ .head _)
    simp only [splitOn, if_neg hc, ih (fun hm => h (.tail _ hm))]

theorem splitOn_append {sep : UInt8} {s r : Bytes} (h : sep ∉ s) : splitOn sep (s ++ sep :: r) = s :: splitOn sep r := by
  induction s with
  | nil => simp only [List.nil_append, splitOn, if_pos]
  | cons c cs ih =>
    have hc : c ≠ sep := fun e => h (e ▸ .head _)
    simp only [List.cons_append, splitOn, if_neg hc, ih (fun hm => h (.tail _ hm))]

theorem splitOn_ne_nil (sep : UInt8) (s : Bytes) : splitOn sep s ≠ [] := by
  intro h
  have := splitOn_total sep s
  rw [h] at this
  simp at this

theorem splitOn_joinBar : ∀ {ps : List Bytes}, ps ≠ [] → (∀ p ∈ ps, NoBar p) → splitOn bar (joinBar ps) = ps
  | [], h, _ => absurd rfl h
  | [a], _, h => splitOn_none (h a (.head _))
  | a :: b :: l, _, h => by
    rw [joinBar, splitOn_append (h a (.head _)), splitOn_joinBar (by simp) (fun p hp => h p (.tail _ hp))]

/-! ### Unfolding -/

theorem interpretString_nil (I : Interpreter) : interpretString I [] = .ok [] := by
  rw [interpretString]; rfl

theorem interpretString_keccak (I : Interpreter) (s : Bytes) :
    interpretString I (keccakPrefix ++ s) = (interpretString I s).map I.keccak := by
  rw [interpretString, dif_neg (by intro h; cases h)]
  rfl

theorem interpretString_simple {I : Interpreter} {s : Bytes} {r : Except ExprErr Bytes} (h0 : s ≠ [])
    (hf : filePrefix.isPrefixOf s = false) (hk : keccakPrefix.isPrefixOf s = false) (hb : NoBar s)
    (hr : simpleExpr s = some r) : interpretString I s = r := by
  rw [interpretString, dif_neg h0, hf, hk, if_neg Bool.false_ne_true, if_neg Bool.false_ne_true, dif_neg, hr]
  rw [splitOn_none hb]; exact Nat.lt_irrefl 1

theorem interpretString_split {I : Interpreter} {s : Bytes} (hf : filePrefix.isPrefixOf s = false)
    (hk : keccakPrefix.isPrefixOf s = false) (hl : 1 < (splitOn bar s).length) :
    interpretString I s = concatAll ((splitOn bar s).map (interpretString I)) := by
  have h0 : s ≠ [] := by rintro rfl; simp [splitOn] at hl
  rw [interpretString, dif_neg h0, hf, hk, if_neg Bool.false_ne_true, if_neg Bool.false_ne_true, dif_pos hl,
    List.attach_map_val (f := interpretString I)]

theorem noBar_append {a b : Bytes} : NoBar (a ++ b) ↔ NoBar a ∧ NoBar b := by
  unfold NoBar; rw [List.mem_append, not_or]

end Arwen.Mandos
