import Verif.Props.Expr
/-!
C40: value expressions evaluate to the documented bytes, and back.
-/
namespace Arwen.Props
open Arwen.Mandos Arwen.Spec

/-! ### Fixed texts, strings, files, hashes -/

/-- **The empty text and the booleans.** -/
theorem c40_fixed (I : Interpreter) : interpretString I [] = .ok [] ∧ interpretString I falseText = .ok [] ∧
    interpretString I trueText = .ok [1] :=
  ⟨interpretString_nil I,
    interpretString_simple (by decide) (by decide) (by decide) (by unfold NoBar; decide) rfl,
    interpretString_simple (by decide) (by decide) (by decide) (by unfold NoBar; decide) rfl⟩

/-- **Texts** stand for themselves, without their mark. -/
theorem c40_str (I : Interpreter) {s : Bytes} (hs : NoBar s) (mark : Bytes)
    (hm : mark ∈ [ascii ['s', 't', 'r', ':'], ascii ['`', '`'], ascii ['\'', '\'']]) : interpretString I (mark ++ s) = .ok s := by
  simp only [List.mem_cons, List.not_mem_nil, or_false] at hm
  rcases hm with rfl | rfl | rfl
  all_goals
    exact interpretString_simple (by intro h; cases h) rfl rfl (noBar_append.2 ⟨by unfold NoBar; decide, hs⟩) rfl

/-- **Hashes** are taken of the value of the rest, `|` included. -/
theorem c40_keccak (I : Interpreter) (s : Bytes) :
    (∀ v, interpretString I s = .ok v → interpretString I (keccakPrefix ++ s) = .ok (I.keccak v)) ∧
    (∀ e, interpretString I s = .error e → interpretString I (keccakPrefix ++ s) = .error e) := by
  rw [interpretString_keccak]
  exact ⟨fun v h => by rw [h]; rfl, fun e h => by rw [h]; rfl⟩

/-- **Files** are read by the resolver. -/
theorem c40_file (I : Interpreter) (s v : Bytes) :
    interpretString I (filePrefix ++ s) = .ok v ↔ ∃ r, I.resolver = some r ∧ r s = some v := by
  rw [interpretString, dif_neg (by intro h; cases h), if_pos (by rfl)]
  rw [show (filePrefix ++ s).drop filePrefix.length = s from rfl]
  cases I.resolver with
  | none => exact ⟨(fun h => by cases h), fun ⟨_, h, _⟩ => by cases h⟩
  | some r =>
    dsimp only
    cases hr : r s with
    | none => exact ⟨(fun h => by cases h), fun ⟨_, h1, h2⟩ => by cases h1; rw [hr] at h2; cases h2⟩
    | some b =>
      constructor
      · intro h; cases h; exact ⟨r, rfl, hr⟩
      · rintro ⟨_, h1, h2⟩; cases h1; rw [hr] at h2; cases h2; rfl

/-! ### Concatenation -/

theorem concatAll_values {I : Interpreter} {ps : List Bytes} {v : Bytes} :
    concatAll (ps.map (interpretString I)) = .ok v ↔ Values I ps v := by
  induction ps generalizing v with
  | nil =>
    constructor
    · intro h; cases h; exact .nil
    · intro h; cases h; rfl
  | cons a l ih =>
    rw [List.map_cons]
    constructor
    · intro h
      cases ha : interpretString I a with
      | error e => rw [ha] at h; cases h
      | ok x =>
        rw [ha] at h
        simp only [concatAll] at h
        cases hl : concatAll (l.map (interpretString I)) with
        | error e => rw [hl] at h; cases h
        | ok r => rw [hl] at h; cases h; exact .cons ha (ih.1 hl)
    · intro h
      cases h with
      | cons ha hl => rw [ha]; simp only [concatAll, ih.2 hl]; rfl

/-- **`|` concatenates** the values of the parts, in order, and fails if one of them does. A text that starts with `file:` or
`keccak256:` is not split. -/
theorem c40_concat (I : Interpreter) {ps : List Bytes} (hb : ∀ p ∈ ps, NoBar p)
    (hf : ¬ filePrefix <+: joinBar ps) (hk : ¬ keccakPrefix <+: joinBar ps) (v : Bytes) :
    interpretString I (joinBar ps) = .ok v ↔ Values I ps v := by
  match ps with
  | [] =>
    rw [joinBar, interpretString_nil]
    constructor
    · intro h; cases h; exact .nil
    · intro h; cases h; rfl
  | [a] =>
    rw [joinBar]
    constructor
    · intro h
      have := Values.cons h .nil
      rwa [List.append_nil] at this
    · intro h
      cases h with
      | cons ha hl => cases hl; rw [List.append_nil]; exact ha
  | a :: b :: l =>
    have hs := splitOn_joinBar (ps := a :: b :: l) (by simp) hb
    rw [interpretString_split (Bool.eq_false_iff.2 (fun h => hf (List.isPrefixOf_iff_prefix.1 h)))
      (Bool.eq_false_iff.2 (fun h => hk (List.isPrefixOf_iff_prefix.1 h))) (by rw [hs]; simp), hs]
    exact concatAll_values

/-! ### Numbers -/

/-- the characters a number can start with -/
def NumberStart (c : UInt8) : Prop := 48 ≤ c.toNat ∧ c.toNat < 58 ∨ c.toNat = 95 ∨ c.toNat = 44 ∨ c.toNat = 43 ∨ c.toNat = 45

theorem ungroup_head {c : UInt8} {cs : Bytes} (h : c ≠ 95 ∧ c ≠ 44) : ungroup (c :: cs) = c :: ungroup cs := by
  unfold ungroup
  rw [List.filter_cons_of_pos]
  simp only [Bool.and_eq_true, bne_iff_ne, ne_eq]
  exact h

theorem mem_of_ungroup {c : UInt8} {s : Bytes} (h : c ∈ s) : c = 95 ∨ c = 44 ∨ c ∈ ungroup s := by
  by_cases h1 : c = 95
  · exact .inl h1
  by_cases h2 : c = 44
  · exact .inr (.inl h2)
  refine .inr (.inr (List.mem_filter.2 ⟨h, ?_⟩))
  simp only [Bool.and_eq_true, bne_iff_ne, ne_eq]
  exact ⟨h1, h2⟩

theorem signedText_mem {s t : Bytes} {neg : Bool} (h : SignedText s t neg) {c : UInt8} (hc : c ∈ s) : c = 43 ∨ c = 45 ∨ c ∈ t := by
  cases h with
  | bare => exact .inr (.inr hc)
  | plus => rcases List.mem_cons.1 hc with h | h <;> simp [h]
  | minus => rcases List.mem_cons.1 hc with h | h <;> simp [h]

theorem hexDigits_mem {s : Bytes} {n : Nat} (h : HexDigits s n) : ∀ c ∈ s, ∃ d, IsHexDigit c d := by
  induction h with
  | none => intro c hc; cases hc
  | more hs h ih =>
    intro c hc
    rcases List.mem_append.1 hc with hc | hc
    · exact ih c hc
    · cases List.mem_singleton.1 hc; exact ⟨_, h⟩

theorem numeral_chars {s : Bytes} {n : Nat} (h : Numeral s n) : NoBar s ∧ ∃ c cs, s = c :: cs ∧ NumberStart c := by
  have hhex : ∀ d, ¬ IsHexDigit bar d := by
    intro d h
    unfold IsHexDigit at h
    rw [show bar.toNat = 124 from rfl] at h
    omega
  cases h with
  | hex hs h =>
    rename_i r
    have h1 : NoBar r := fun hm => (hexDigits_mem h bar hm).elim (hhex ·)
    rcases hs with rfl | rfl
    all_goals
      refine ⟨?_, _, _, rfl, .inl (by decide)⟩
      intro hm
      rcases List.mem_cons.1 hm with hm | hm
      · exact absurd hm (by decide)
      · rcases List.mem_cons.1 hm with hm | hm
        · exact absurd hm (by decide)
        · exact h1 hm
  | bin hs ht h =>
    rename_i r t neg
    have h1 : NoBar r := by
      intro hm
      rcases mem_of_ungroup hm with h' | h' | h'
      · exact absurd h' (by decide)
      · exact absurd h' (by decide)
      · rcases signedText_mem ht h' with h' | h' | h'
        · exact absurd h' (by decide)
        · exact absurd h' (by decide)
        · exact absurd (digits_mem h bar h').2 (by decide)
    rcases hs with rfl | rfl
    all_goals
      refine ⟨?_, _, _, rfl, .inl (by decide)⟩
      intro hm
      rcases List.mem_cons.1 hm with hm | hm
      · exact absurd hm (by decide)
      · rcases List.mem_cons.1 hm with hm | hm
        · exact absurd hm (by decide)
        · exact h1 hm
  | dec hx hb ht h hz =>
    rename_i t neg
    have hc : ∀ c ∈ s, NumberStart c := by
      intro c hc
      unfold NumberStart
      rcases mem_of_ungroup hc with h' | h' | h'
      · rw [h']; exact .inr (.inl rfl)
      · rw [h']; exact .inr (.inr (.inl rfl))
      · rcases signedText_mem ht h' with h' | h' | h'
        · rw [h']; exact .inr (.inr (.inr (.inl rfl)))
        · rw [h']; exact .inr (.inr (.inr (.inr rfl)))
        · exact .inl (digits_mem h c h')
    refine ⟨fun hm => ?_, ?_⟩
    · have := hc bar hm
      unfold NumberStart at this
      rw [show bar.toNat = 124 from rfl] at this
      omega
    · cases s with
      | nil =>
        exfalso
        have : SignedText ([] : Bytes) t neg := ht
        cases this
        exact digits_ne_nil h rfl
      | cons c cs => exact ⟨c, cs, rfl, hc c (.head _)⟩

theorem simpleExpr_number {c : UInt8} {cs : Bytes} (h : NumberStart c) :
    simpleExpr (c :: cs) = some (number (c :: cs) 0) ∧ filePrefix.isPrefixOf (c :: cs) = false ∧
      keccakPrefix.isPrefixOf (c :: cs) = false := by
  have hne : ∀ x : UInt8, ¬ NumberStart x → c ≠ x ∧ x ≠ c := by
    intro x hx
    exact ⟨fun e => hx (e ▸ h), fun e => hx (e ▸ h)⟩
  have d : ∀ x : UInt8, ¬ NumberStart x → ∀ l : Bytes, (x :: l).isPrefixOf (c :: cs) = false := by
    intro x hx l
    show (x == c && _) = false
    rw [beq_false_of_ne (hne x hx).2, Bool.false_and]
  have e : ∀ x : UInt8, ¬ NumberStart x → ∀ l : Bytes, c :: cs ≠ x :: l := by
    intro x hx l hh
    exact (hne x hx).1 (List.cons.inj hh).1
  refine ⟨?_, d _ (by unfold NumberStart; decide) _, d _ (by unfold NumberStart; decide) _⟩
  unfold simpleExpr
  rw [if_neg (show ¬ c :: cs = falseText from e 102 (by unfold NumberStart; decide) _),
    if_neg (show ¬ c :: cs = trueText from e 116 (by unfold NumberStart; decide) _)]
  simp only [strPrefix, addrPrefix, scPrefix, u64Prefix, u32Prefix, u16Prefix, u8Prefix, i64Prefix, i32Prefix, i16Prefix, i8Prefix,
    biguintPrefix, nestedPrefix, ascii, List.map_cons, List.map_nil]
  simp only [d _ (show ¬ NumberStart (UInt8.ofNat 's'.toNat) by unfold NumberStart; decide),
    d _ (show ¬ NumberStart (UInt8.ofNat '`'.toNat) by unfold NumberStart; decide),
    d _ (show ¬ NumberStart (UInt8.ofNat '\''.toNat) by unfold NumberStart; decide),
    d _ (show ¬ NumberStart (UInt8.ofNat 'a'.toNat) by unfold NumberStart; decide),
    d _ (show ¬ NumberStart (UInt8.ofNat 'u'.toNat) by unfold NumberStart; decide),
    d _ (show ¬ NumberStart (UInt8.ofNat 'i'.toNat) by unfold NumberStart; decide),
    d _ (show ¬ NumberStart (UInt8.ofNat 'b'.toNat) by unfold NumberStart; decide),
    d _ (show ¬ NumberStart (UInt8.ofNat 'n'.toNat) by unfold NumberStart; decide), Bool.false_eq_true, if_false]

theorem interpret_number (I : Interpreter) {c : UInt8} {cs : Bytes} (h : NumberStart c) (hb : NoBar (c :: cs)) :
    interpretString I (c :: cs) = number (c :: cs) 0 := by
  obtain ⟨h1, h2, h3⟩ := simpleExpr_number (cs := cs) h
  exact interpretString_simple (List.cons_ne_nil _ _) h2 h3 hb h1

/-- **Numbers without a sign** evaluate to their bytes: the shortest form for decimal and binary numbers, one byte for every two
digits for hexadecimal ones. -/
theorem c40_number (I : Interpreter) {c : UInt8} {cs : Bytes} {n : Nat} (h : Numeral (c :: cs) n) (hc : c ≠ 43 ∧ c ≠ 45) :
    ∃ b, interpretString I (c :: cs) = .ok b ∧ bytesToNat b = n ∧
      (HexMark (c :: cs) → b.length = cs.length / 2) ∧
      (¬ HexMark (c :: cs) → ∀ x, b.head? = some x → x ≠ 0) := by
  obtain ⟨hb, _, _, e, hs⟩ := numeral_chars h
  cases e
  obtain ⟨b, hu, hv⟩ := unsignedNumber_numeral h
  refine ⟨b, ?_, hv, ?_, ?_⟩
  · rw [interpret_number I hs hb]
    simp only [number, hc.1, hc.2, or_self, if_false, if_true]
    exact hu
  · intro hx
    rcases (unsignedNumber_ok hu).2 with ⟨_, hl⟩ | ⟨hn, _⟩
    · simp only [List.length_cons, Nat.add_sub_cancel] at hl; omega
    · exact absurd hx hn
  · intro hx x hh
    rcases (unsignedNumber_ok hu).2 with ⟨h', _⟩ | ⟨_, hn⟩
    · exact absurd h' hx
    · rw [hn] at hh; exact natToBytes_head _ x hh

theorem twosToBytes_shortest (z : Int) : IsShortestSigned z (twosToBytes z) := by
  refine ⟨(twos_length_le z _).2 (Nat.le_refl _), ⟨rfl, ?_⟩, fun w hw h => ?_⟩
  · have := bytesToNat_twos (twosToBytes z)
    rwa [twosFromBytes_toBytes] at this
  · have := (twos_length_le z w).1 h; omega

/-- **Numbers with a sign** evaluate to their shortest two's complement form. -/
theorem c40_signed (I : Interpreter) {s : Bytes} {n : Nat} (h : Numeral s n) (minus : Bool) :
    ∃ b, interpretString I ((if minus then 45 else 43) :: s) = .ok b ∧ IsShortestSigned (if minus then -n else n) b := by
  obtain ⟨hb, _⟩ := numeral_chars h
  obtain ⟨b, hu, rfl⟩ := unsignedNumber_numeral h
  refine ⟨_, ?_, twosToBytes_shortest _⟩
  rw [interpret_number I (by unfold NumberStart; cases minus <;> decide)]
  · cases minus
    all_goals simp [number, hu]
  · intro hm
    rcases List.mem_cons.1 hm with h | h
    · cases minus <;> exact absurd h (by decide)
    · exact hb h

/-! ### Lengths -/

theorem withLength_has (v : Bytes) : HasLength v (withLength v) := by
  refine ⟨copyAlignRight (natToBytes v.length) 4, ?_, rfl, fun h => ?_⟩
  · unfold copyAlignRight
    simp only [List.length_append, List.length_replicate, List.length_drop]
    omega
  · have := (copyAlignRight_fits (natToBytes_length_le.2 (show v.length < 256 ^ 4 from h))).2
    rw [this, bytesToNat_natToBytes]

/-- **`biguint:`** gives the number after its length in four bytes. -/
theorem c40_biguint (I : Interpreter) {c : UInt8} {cs : Bytes} {n : Nat} (h : Numeral (c :: cs) n) (hc : c ≠ 43 ∧ c ≠ 45) :
    ∃ v r, interpretString I (c :: cs) = .ok v ∧ interpretString I (biguintPrefix ++ c :: cs) = .ok r ∧ HasLength v r := by
  obtain ⟨hb, _, _, e, hs⟩ := numeral_chars h
  cases e
  obtain ⟨v, hu, hv⟩ := unsignedNumber_numeral h
  refine ⟨v, withLength v, ?_, ?_, withLength_has v⟩
  · rw [interpret_number I hs hb]
    simp only [number, hc.1, hc.2, or_self, if_false, if_true]
    exact hu
  · rw [interpretString_simple (r := (unsignedNumber (c :: cs)).map withLength) (by intro h; cases h) rfl rfl
      (noBar_append.2 ⟨by unfold NoBar; decide, hb⟩) rfl, hu]
    rfl

/-- **`nested:`** gives the value of the rest after its length in four bytes. -/
theorem c40_nested (I : Interpreter) {s v : Bytes} (hb : NoBar s) (h : interpretString I s = .ok v) :
    ∃ r, interpretString I (nestedPrefix ++ s) = .ok r ∧ HasLength v r := by
  refine ⟨withLength v, ?_, withLength_has v⟩
  rw [interpretString, dif_neg (by intro h; cases h), if_neg (by intro h; cases h), if_neg (by intro h; cases h), dif_neg]
  · rw [show simpleExpr (nestedPrefix ++ s) = none from rfl]
    dsimp only
    rw [show (nestedPrefix ++ s).drop nestedPrefix.length = s from rfl, h]
    rfl
  · rw [splitOn_none (noBar_append.2 ⟨by unfold NoBar; decide, hb⟩)]
    exact Nat.lt_irrefl 1

/-! ### Addresses -/

theorem addressFromPrefix_of (name : Bytes) {zeros : Nat} (hz : zeros ≤ 32) : AddressOf name zeros (addressFromPrefix name zeros) := by
  unfold addressFromPrefix
  constructor
  · simp only [List.length_append, List.length_replicate, List.length_take]; omega
  · intro i hi
    by_cases h1 : i < zeros
    · rw [if_pos h1, List.append_assoc, List.getElem?_append_left (by rw [List.length_replicate]; exact h1),
        List.getElem?_replicate, if_pos h1]
    · rw [if_neg h1, List.append_assoc, List.getElem?_append_right (by rw [List.length_replicate]; omega), List.length_replicate]
      by_cases h2 : i - zeros < name.length
      · rw [List.getElem?_append_left (by rw [List.length_take]; omega), List.getElem?_take, if_pos (by omega),
          List.getD_eq_getElem?_getD, List.getElem?_eq_getElem h2]
        rfl
      · rw [List.getElem?_append_right (by rw [List.length_take]; omega), List.length_take, List.getElem?_replicate,
          if_pos (by omega), List.getD_eq_getElem?_getD, List.getElem?_eq_none (by omega)]
        rfl

theorem addressFromPrefix_length (name : Bytes) {zeros : Nat} (hz : zeros ≤ 32) : (addressFromPrefix name zeros).length = 32 :=
  (addressFromPrefix_of name hz).1

theorem first_split {x : UInt8} {s : Bytes} (h : x ∈ s) : ∃ u v, s = u ++ x :: v ∧ x ∉ u := by
  induction s with
  | nil => cases h
  | cons c cs ih =>
    by_cases hc : x = c
    · exact ⟨[], cs, by rw [hc]; rfl, by simp⟩
    · obtain ⟨u, v, rfl, hu⟩ := ih ((List.mem_cons.1 h).resolve_left hc)
      exact ⟨c :: u, v, rfl, fun hm => (List.mem_cons.1 hm).elim hc hu⟩

theorem set31 {a : Bytes} (h : a.length = 32) (b : UInt8) : a.set 31 b = a.take 31 ++ [b] := by
  rw [List.set_eq_take_append_cons_drop, if_pos (by omega), List.drop_eq_nil_of_le (by omega)]

/-- the marks of addresses and the number of zeros they stand for -/
def AddressMark (mark : Bytes) (zeros : Nat) : Prop := (mark, zeros) ∈ [(addrPrefix, 0), (scPrefix, 8)]

theorem interpret_address (I : Interpreter) {mark s : Bytes} {zeros : Nat} (hm : AddressMark mark zeros) (hs : NoBar s) :
    interpretString I (mark ++ s) = addressOptionalShard s zeros ∧ zeros ≤ 32 := by
  simp only [AddressMark, List.mem_cons, List.not_mem_nil, or_false, Prod.mk.injEq] at hm
  rcases hm with ⟨rfl, rfl⟩ | ⟨rfl, rfl⟩
  all_goals
    exact ⟨interpretString_simple (by intro h; cases h) rfl rfl (noBar_append.2 ⟨by unfold NoBar; decide, hs⟩) rfl, by decide⟩

/-- **Addresses** are the name between zeros and underscores; two hexadecimal digits after `#` give the last byte. -/
theorem c40_address (I : Interpreter) {mark name : Bytes} {zeros : Nat} (hm : AddressMark mark zeros) (hb : NoBar name)
    (hh : (35 : UInt8) ∉ name) :
    (∃ r, interpretString I (mark ++ name) = .ok r ∧ AddressOf name zeros r) ∧
    (∀ (h : Bytes) (shard : UInt8), h.length = 2 → HexDigits h shard.toNat →
      ∃ r, interpretString I (mark ++ name ++ 35 :: h) = .ok r ∧ AddressInShard name zeros shard r) ∧
    (∀ h : Bytes, NoBar h → (¬ ∃ shard : UInt8, h.length = 2 ∧ HexDigits h shard.toNat) →
      interpretString I (mark ++ name ++ 35 :: h) = .error .rejected) := by
  have key : ∀ h bs, hexDecode h = some bs → HexDigits h (bytesToNat bs) ∧ h.length = 2 * bs.length := by
    intro h bs hd
    have := scanHex_hexDecode h bs 0 hd
    rw [Nat.zero_mul, Nat.zero_add] at this
    exact ⟨scanHex_iff.1 this.1, this.2⟩
  refine ⟨?_, ?_, ?_⟩
  · obtain ⟨h1, hz⟩ := interpret_address I hm hb
    refine ⟨_, ?_, addressFromPrefix_of name hz⟩
    rw [h1]
    unfold addressOptionalShard
    rw [splitOn_none hh]
  · intro h shard hl hd
    have hb2 : NoBar (name ++ 35 :: h) := by
      refine noBar_append.2 ⟨hb, fun hm => ?_⟩
      rcases List.mem_cons.1 hm with h' | h'
      · exact absurd h' (by decide)
      · obtain ⟨d, hd⟩ := hexDigits_mem hd bar h'
        unfold IsHexDigit at hd
        rw [show bar.toNat = 124 from rfl] at hd
        omega
    have hh2 : (35 : UInt8) ∉ h := by
      intro hm
      obtain ⟨d, hd⟩ := hexDigits_mem hd 35 hm
      unfold IsHexDigit at hd
      rw [show UInt8.toNat 35 = 35 from rfl] at hd
      omega
    obtain ⟨h1, hz⟩ := interpret_address I hm hb2
    have e : hexDecode h = some [shard] := by
      have := (hexEven_iff (h := h) (bs := [shard])).2
        ⟨by rw [show bytesToNat [shard] = shard.toNat by rw [bytesToNat_cons]; simp]; exact hd, by rw [hl]; rfl⟩
      rwa [hl] at this
    refine ⟨(addressFromPrefix name zeros).set 31 shard, ?_, _, addressFromPrefix_of name hz, set31 (addressFromPrefix_length name hz) _⟩
    rw [List.append_assoc, h1]
    unfold addressOptionalShard
    rw [splitOn_append hh, splitOn_none hh2]
    simp only [decodeShardId, e]
    rfl
  · intro h hbh hn
    have hb2 : NoBar (name ++ 35 :: h) := by
      refine noBar_append.2 ⟨hb, fun hm => ?_⟩
      rcases List.mem_cons.1 hm with h' | h'
      · exact absurd h' (by decide)
      · exact hbh h'
    obtain ⟨h1, hz⟩ := interpret_address I hm hb2
    rw [List.append_assoc, h1]
    unfold addressOptionalShard
    rw [splitOn_append hh]
    split
    · rename_i heq; exact absurd (List.cons.inj heq).2 (splitOn_ne_nil _ _)
    · rename_i t s heq
      obtain ⟨rfl, heq2⟩ := List.cons.inj heq
      have hs : s = h := by
        have hj := splitOn_total 35 h
        by_cases hx : (35 : UInt8) ∈ h
        · exfalso
          obtain ⟨u, v, rfl, hu⟩ := first_split hx
          rw [splitOn_append hu] at heq2
          exact splitOn_ne_nil _ _ (List.cons.inj heq2).2
        · rw [splitOn_none hx] at heq2; exact (List.cons.inj heq2).1.symm
      subst hs
      unfold decodeShardId
      split
      · rename_i b hd
        have := key _ _ hd
        refine absurd ⟨b, this.2, ?_⟩ hn
        rw [show b.toNat = bytesToNat [b] by rw [bytesToNat_cons]; simp]
        exact this.1
      · rfl
    · rfl

/-! ### Back from bytes -/

/-- **Numbers** evaluate back to the bytes they were printed from, if these have no leading zero. -/
theorem c40_back_number_partial (I : Interpreter) (q : Bytes → Bytes) (v : Bytes) :
    ∃ b, interpretString I (reconstruct q v .number) = .ok b ∧ bytesToNat b = bytesToNat v ∧
      ((∀ x, v.head? = some x → x ≠ 0) → b = v) := by
  have hd := decimal_digits (bytesToNat v)
  obtain ⟨hx, hb, hu⟩ := digits_plain hd
  have hnum : Numeral (decimal (bytesToNat v)) (bytesToNat v) :=
    .dec (neg := false) hx hb (by rw [hu]; exact .bare) hd (fun h => by cases h)
  rw [reconstruct]
  cases hc : decimal (bytesToNat v) with
  | nil => exact absurd hc (digits_ne_nil hd)
  | cons c cs =>
    rw [hc] at hnum hd hx
    have hm := digits_mem hd c (.head _)
    obtain ⟨b, h1, h2, _, h4⟩ := c40_number I hnum
      ⟨by rintro rfl; exact absurd hm.1 (by decide), by rintro rfl; exact absurd hm.1 (by decide)⟩
    refine ⟨b, h1, h2, fun hv => ?_⟩
    exact bytes_unique b v (h4 hx) hv h2

/-- **Texts** evaluate back to the bytes they were made from, if these contain no `|`. -/
theorem c40_back_str_partial (I : Interpreter) (q : Bytes → Bytes) {v : Bytes} (hv : NoBar v) :
    interpretString I (reconstruct q v .str) = .ok v :=
  c40_str I hv _ (.head _)

/-- **Short code** evaluates back to the bytes it was made from. -/
theorem c40_back_code_partial (I : Interpreter) (q : Bytes → Bytes) {v : Bytes} (hv : v.length ≤ 10) :
    interpretString I (reconstruct q v .code) = .ok v := by
  rw [reconstruct, codePretty]
  by_cases h0 : v = []
  · rw [if_pos h0, h0]; exact interpretString_nil I
  · rw [if_neg h0, if_neg (by rw [hexEncode_length]; omega)]
    have hd : HexDigits (hexEncode v) (bytesToNat v) := by
      have := scanHex_hexDecode _ _ 0 (hexDecode_encode v)
      rw [Nat.zero_mul, Nat.zero_add] at this
      exact scanHex_iff.1 this.1
    have hnum : Numeral (48 :: 120 :: hexEncode v) (bytesToNat v) := .hex (.inl rfl) hd
    obtain ⟨b, h1, h2, h3, _⟩ := c40_number I hnum ⟨by decide, by decide⟩
    have h4 := h3 ⟨_, .inl rfl⟩
    rw [List.length_cons, hexEncode_length] at h4
    rw [bytes_eq_of_length (show b.length = v.length by omega) h2] at h1
    exact h1

theorem trimRight_spec (s : Bytes) : s = trimRight s ++ List.replicate (s.length - (trimRight s).length) 95 ∧
    (trimRight s).length ≤ s.length := by
  induction s with
  | nil => exact ⟨rfl, Nat.le_refl _⟩
  | cons c cs ih =>
    obtain ⟨h1, h2⟩ := ih
    rw [trimRight]
    split
    · rename_i ht
      rw [ht] at h1
      simp only [List.nil_append, List.length_nil, Nat.sub_zero] at h1
      split
      · rename_i hc
        subst hc
        refine ⟨?_, Nat.zero_le _⟩
        simp only [List.nil_append, List.length_nil, Nat.sub_zero, List.length_cons, List.replicate_succ]
        rw [← h1]
      · refine ⟨?_, by simp⟩
        simp only [List.length_cons, List.length_nil, Nat.add_sub_cancel, List.singleton_append]
        rw [← h1]
    · refine ⟨?_, by simp only [List.length_cons]; omega⟩
      simp only [List.length_cons, List.cons_append, Nat.add_sub_add_right]
      rw [← h1]

theorem trimRight_mem {s : Bytes} {c : UInt8} (h : c ∈ trimRight s) : c ∈ s := by
  rw [(trimRight_spec s).1]; exact List.mem_append_left _ h

/-- the address made from what is left of `s` after trimming -/
theorem address_trimmed {s : Bytes} {zeros : Nat} (hz : zeros ≤ 32) (hs : s.length ≤ 32 - zeros) :
    addressFromPrefix (trimRight s) zeros =
      List.replicate zeros 0 ++ s ++ List.replicate (32 - zeros - s.length) 95 := by
  obtain ⟨h1, h2⟩ := trimRight_spec s
  unfold addressFromPrefix
  rw [List.take_of_length_le (by omega)]
  conv => rhs; rw [h1]
  rw [List.append_assoc, List.append_assoc, List.append_assoc, List.replicate_append_replicate]
  have : 32 - ((trimRight s).length + zeros) = s.length - (trimRight s).length + (32 - zeros -
      (trimRight s ++ List.replicate (s.length - (trimRight s).length) 95).length) := by
    rw [← h1]; omega
  rw [this]

theorem take31_last {v : Bytes} (h : v.length = 32) : v = v.take 31 ++ [v.getD 31 0] := by
  have := List.take_append_drop 31 v
  rw [List.drop_eq_getElem_cons (by omega), List.drop_eq_nil_of_le (by omega)] at this
  rw [List.getD_eq_getElem?_getD, List.getElem?_eq_getElem (by omega)]
  exact this.symm

theorem hexEncode_one (b : UInt8) : (hexEncode [b]).length = 2 ∧ HexDigits (hexEncode [b]) b.toNat := by
  refine ⟨by rw [hexEncode_length]; rfl, ?_⟩
  have := scanHex_hexDecode _ _ 0 (hexDecode_encode [b])
  rw [Nat.zero_mul, Nat.zero_add] at this
  rw [show b.toNat = bytesToNat [b] by rw [bytesToNat_cons]; simp]
  exact scanHex_iff.1 this.1

theorem c40_address_eval (I : Interpreter) {mark name h : Bytes} {zeros : Nat} (hm : AddressMark mark zeros) (hb : NoBar name)
    (hh : (35 : UInt8) ∉ name) :
    interpretString I (mark ++ name) = .ok (addressFromPrefix name zeros) ∧
    (∀ b, hexDecode h = some [b] → h.length = 2 → HexDigits h b.toNat →
      interpretString I (mark ++ name ++ 35 :: h) = .ok ((addressFromPrefix name zeros).take 31 ++ [b])) := by
  have uniq : ∀ a b : Bytes, AddressOf name zeros a → AddressOf name zeros b → a = b := by
    intro a b ha hb
    apply List.ext_getElem?
    intro i
    by_cases hi : i < 32
    · rw [ha.2 i hi, hb.2 i hi]
    · rw [List.getElem?_eq_none (by rw [ha.1]; omega), List.getElem?_eq_none (by rw [hb.1]; omega)]
  have hz := (interpret_address I hm hb).2
  obtain ⟨⟨r, h1, h2⟩, h3, _⟩ := c40_address I hm hb hh
  refine ⟨?_, ?_⟩
  · rw [h1, uniq _ _ h2 (addressFromPrefix_of name hz)]
  · intro b _ hl hd
    obtain ⟨r, h4, a, h5, rfl⟩ := h3 h b hl hd
    rw [h4, uniq _ _ h5 (addressFromPrefix_of name hz)]

/-- **Addresses** evaluate back to the bytes they were made from, if these contain neither `|` nor `#` and, for a contract, the last
byte is at least 16. -/
theorem c40_back_address_partial (I : Interpreter) (q : Bytes → Bytes) {v : Bytes} (hl : v.length = 32)
    (hc : ∀ c ∈ v.take 31, c ≠ bar ∧ c ≠ 35) (hsc : v.take 8 = List.replicate 8 0 → 16 ≤ v.getD 31 0) :
    interpretString I (reconstruct q v .address) = .ok v := by
  have hv := take31_last hl
  have hmem : v.getD 31 0 = 95 → ∀ c ∈ v, c ≠ bar ∧ c ≠ 35 := by
    intro h95 c hm
    rw [hv, h95] at hm
    rcases List.mem_append.1 hm with hm | hm
    · exact hc c hm
    · cases List.mem_singleton.1 hm; decide
  rw [reconstruct, addressPretty, if_neg (by simp [hl])]
  dsimp only
  have h8 : ∀ {w : Bytes}, v.take 8 = List.replicate 8 0 → w.take 8 = v.take 8 → List.replicate 8 0 ++ w.drop 8 = w := by
    intro w h hw
    rw [← h, ← hw, List.take_append_drop]
  split
  · rename_i hz
    split
    · rename_i h95
      have := (c40_address_eval I (mark := scPrefix) (zeros := 8) (name := trimRight (v.drop scZeros)) (h := [])
        (.tail _ (.head _)) (fun hm => (hmem h95 _ (List.mem_of_mem_drop (trimRight_mem hm))).1 rfl)
        (fun hm => (hmem h95 _ (List.mem_of_mem_drop (trimRight_mem hm))).2 rfl)).1
      rw [this, address_trimmed (by decide) (by rw [List.length_drop, hl]; decide), List.length_drop, hl]
      rw [show 32 - 8 - (32 - scZeros) = 0 by decide, List.replicate_zero, List.append_nil]
      rw [show scZeros = 8 from rfl, h8 hz rfl]
    · rename_i h95
      have hge := hsc hz
      have e : hexByte (v.getD 31 0) = hexEncode [v.getD 31 0] := by
        unfold hexByte
        rw [if_neg]
        rw [u8_lt_iff]; rw [u8_le_iff] at hge
        omega
      obtain ⟨h1, h2⟩ := hexEncode_one (v.getD 31 0)
      have := (c40_address_eval I (mark := scPrefix) (zeros := 8) (name := trimRight ((v.take 31).drop scZeros))
        (h := hexEncode [v.getD 31 0])
        (.tail _ (.head _)) (fun hm => (hc _ (List.mem_of_mem_drop (trimRight_mem hm))).1 rfl)
        (fun hm => (hc _ (List.mem_of_mem_drop (trimRight_mem hm))).2 rfl)).2 _ (hexDecode_encode _) h1 h2
      rw [e, List.append_assoc _ [35], List.singleton_append, this,
        address_trimmed (by decide) (by rw [List.length_drop, List.length_take, hl]; decide), List.length_drop, List.length_take, hl]
      rw [show scZeros = 8 from rfl, h8 hz (by rw [List.take_take]; rfl)]
      rw [show 32 - 8 - (min 31 32 - 8) = 1 by decide, List.take_append_of_le_length (by rw [List.length_take, hl]; decide),
        List.take_take, show min 31 31 = 31 from rfl, ← hv]
  · split
    · rename_i h95
      have := (c40_address_eval I (mark := addrPrefix) (zeros := 0) (name := trimRight v) (h := [])
        (.head _) (fun hm => (hmem h95 _ (trimRight_mem hm)).1 rfl) (fun hm => (hmem h95 _ (trimRight_mem hm)).2 rfl)).1
      rw [this, address_trimmed (by decide) (by rw [hl]; decide), hl]
      rw [show 32 - 0 - 32 = 0 by decide, List.replicate_zero, List.replicate_zero, List.append_nil, List.nil_append]
    · obtain ⟨h1, h2⟩ := hexEncode_one (v.getD 31 0)
      have := (c40_address_eval I (mark := addrPrefix) (zeros := 0) (name := trimRight (v.take 31))
        (h := hexEncode [v.getD 31 0])
        (.head _) (fun hm => (hc _ (trimRight_mem hm)).1 rfl) (fun hm => (hc _ (trimRight_mem hm)).2 rfl)).2 _ (hexDecode_encode _) h1 h2
      rw [List.append_assoc _ [35], List.singleton_append, this,
        address_trimmed (by decide) (by rw [List.length_take, hl]; decide), List.length_take, hl]
      rw [List.replicate_zero, List.nil_append, List.take_append_of_le_length (by rw [List.length_take, hl]; decide),
        List.take_take, show min 31 31 = 31 from rfl, ← hv]

/-! ### What does not evaluate back -/

/-- **Contract addresses in the shards 0 to 15 do not evaluate back**: the shard is printed with one digit and read with two. -/
theorem c40_sc_neg (I : Interpreter) (q : Bytes → Bytes) {v : Bytes} (hl : v.length = 32)
    (hc : ∀ c ∈ v.take 31, c ≠ bar ∧ c ≠ 35) (hz : v.take 8 = List.replicate 8 0) (hs : v.getD 31 0 < 16) :
    interpretString I (reconstruct q v .address) = .error .rejected := by
  rw [reconstruct, addressPretty, if_neg (by simp [hl])]
  dsimp only
  rw [if_pos (show v.take scZeros = List.replicate scZeros 0 from hz), if_neg (by intro h; rw [h] at hs; exact absurd hs (by decide))]
  have e : hexByte (v.getD 31 0) = [hexDigit (v.getD 31 0)] := if_pos hs
  rw [e, List.append_assoc _ [35], List.singleton_append]
  refine (c40_address I (mark := scPrefix) (zeros := 8) (name := trimRight ((v.take 31).drop scZeros))
    (.tail _ (.head _)) (fun hm => (hc _ (List.mem_of_mem_drop (trimRight_mem hm))).1 rfl)
    (fun hm => (hc _ (List.mem_of_mem_drop (trimRight_mem hm))).2 rfl)).2.2 _ ?_ ?_
  · intro hm
    have : ∀ b : UInt8, b < 16 → hexDigit b ≠ bar := by apply forall_uint8; decide +kernel
    exact this _ hs (List.mem_singleton.1 hm).symm
  · rintro ⟨_, h, _⟩; cases h

theorem unsignedNumber_bad_hex {s : Bytes} {c : UInt8} (hc : c ∈ s) (hx : ∀ d, ¬ IsHexDigit c d) :
    unsignedNumber (48 :: 120 :: s) = .error .rejected := by
  cases h : unsignedNumber (48 :: 120 :: s) with
  | ok b =>
    have := (unsignedNumber_ok h).1
    cases this with
    | hex hs hd =>
      rcases hs with hs | hs
      · cases hs; exact absurd ((hexDigits_mem hd c hc).choose_spec) (hx _)
      · cases hs
    | bin hs _ _ => rcases hs with hs | hs <;> cases hs
    | dec hx _ _ _ _ => exact absurd ⟨_, .inl rfl⟩ hx
  | error e =>
    cases e with
    | rejected => rfl
    | panic => exact absurd h (unsignedNumber_no_panic _)

theorem interpret_first {I : Interpreter} {s p : Bytes} {ps : List Bytes} {e : ExprErr} (hf : filePrefix.isPrefixOf s = false)
    (hk : keccakPrefix.isPrefixOf s = false) (hs : splitOn bar s = p :: ps) (hp : interpretString I p = .error e)
    (h1 : ps = [] → p = s) : interpretString I s = .error e := by
  cases ps with
  | nil => rw [← h1 rfl]; exact hp
  | cons b l =>
    rw [interpretString_split hf hk (by rw [hs]; simp), hs, List.map_cons, hp]
    rfl

theorem splitOn_first {sep : UInt8} {a : Bytes} (ha : sep ∉ a) (r : Bytes) :
    ∃ t ts, splitOn sep (a ++ r) = (a ++ t) :: ts ∧ sep ∉ t ∧ (ts = [] → t = r) := by
  by_cases hr : sep ∈ r
  · obtain ⟨u, v, rfl, hu⟩ := first_split hr
    refine ⟨u, splitOn sep v, ?_, hu, fun h => absurd h (splitOn_ne_nil _ _)⟩
    rw [← List.append_assoc, splitOn_append]
    intro hm
    exact (List.mem_append.1 hm).elim ha hu
  · refine ⟨r, [], splitOn_none ?_, hr, fun _ => rfl⟩
    intro hm
    exact (List.mem_append.1 hm).elim ha hr

theorem hexEncode_noBar (v : Bytes) : NoBar (hexEncode v) := by
  intro hm
  have := scanHex_hexDecode _ _ 0 (hexDecode_encode v)
  obtain ⟨d, hd⟩ := hexDigits_mem (scanHex_iff.1 this.1) bar hm
  unfold IsHexDigit at hd
  rw [show bar.toNat = 124 from rfl] at hd
  omega

/-- a text `0x…` with a character that is no hexadecimal digit before any `|` is rejected -/
theorem interpret_bad_hex (I : Interpreter) {a : Bytes} {c : UInt8} (ha : NoBar a) (hc : c ∈ a) (hx : ∀ d, ¬ IsHexDigit c d)
    (r : Bytes) : interpretString I (48 :: 120 :: a ++ r) = .error .rejected := by
  have hb : NoBar (48 :: 120 :: a) := by
    intro hm
    rcases List.mem_cons.1 hm with h | h
    · exact absurd h (by decide)
    · rcases List.mem_cons.1 h with h | h
      · exact absurd h (by decide)
      · exact ha h
  obtain ⟨t, ts, h1, h2, h3⟩ := splitOn_first hb r
  refine interpret_first rfl rfl h1 ?_ (fun h => by rw [h3 h])
  have hb2 : NoBar (48 :: 120 :: (a ++ t)) := noBar_append.2 ⟨hb, h2⟩
  rw [List.cons_append, List.cons_append, interpret_number I (by unfold NumberStart; decide) hb2]
  show unsignedNumber (48 :: 120 :: (a ++ t)) = _
  exact unsignedNumber_bad_hex (List.mem_append_left _ hc) hx

/-- **Values without a hint do not evaluate back**, nor do addresses of another length than 32: the remark in parentheses makes the
text invalid. -/
theorem c40_unknown_neg (I : Interpreter) (q : Bytes → Bytes) {v : Bytes} (hv : v ≠ []) :
    interpretString I (reconstruct q v .none) = .error .rejected ∧
    (v.length ≠ 32 → interpretString I (reconstruct q v .address) = .error .rejected) := by
  have key : interpretString I (unknownPretty q v) = .error .rejected := by
    have hx : ∀ d, ¬ IsHexDigit 32 d := by
      intro d hd
      unfold IsHexDigit at hd
      rw [show UInt8.toNat 32 = 32 from rfl] at hd
      omega
    have := interpret_bad_hex I (a := hexEncode v ++ ascii [' ', '(']) (c := 32)
      (noBar_append.2 ⟨hexEncode_noBar v, by unfold NoBar; decide⟩) (List.mem_append_right _ (.head _)) hx
    unfold unknownPretty
    rw [if_neg hv]
    split
    · have h := this (strPrefix ++ v ++ ascii [')'])
      simp only [List.append_assoc, List.cons_append] at h ⊢
      exact h
    · split
      · have h := this (decimal (bytesToNat v) ++ ascii [')'])
        simp only [List.append_assoc, List.cons_append] at h ⊢
        exact h
      · have h := this (strPrefix ++ q v ++ ascii [')'])
        simp only [List.append_assoc, List.cons_append] at h ⊢
        exact h
  refine ⟨key, fun h => ?_⟩
  rw [reconstruct, addressPretty, if_pos h]
  exact key

/-- **Code of more than ten bytes does not evaluate back**: it is cut and ends with three dots. -/
theorem c40_code_neg (I : Interpreter) (q : Bytes → Bytes) {v : Bytes} (hv : 10 < v.length) :
    interpretString I (reconstruct q v .code) = .error .rejected := by
  have h0 : v ≠ [] := by rintro rfl; cases hv
  rw [reconstruct, codePretty, if_neg h0, if_pos (by rw [hexEncode_length]; omega)]
  have hx : ∀ d, ¬ IsHexDigit 46 d := by
    intro d hd
    unfold IsHexDigit at hd
    rw [show UInt8.toNat 46 = 46 from rfl] at hd
    omega
  have := interpret_bad_hex I (a := (hexEncode v).take 20 ++ ascii ['.', '.', '.']) (c := 46)
    (noBar_append.2 ⟨fun h => hexEncode_noBar v (List.mem_of_mem_take h), by unfold NoBar; decide⟩)
    (List.mem_append_right _ (.head _)) hx []
  simp only [List.append_assoc, List.append_nil] at this ⊢
  exact this

/-- **A text with `|` does not evaluate back**: what follows is read as another expression. -/
theorem c40_bar_neg (I : Interpreter) (q : Bytes → Bytes) :
    interpretString I (reconstruct q (ascii ['a', '|', '1']) .str) = .ok (ascii ['a'] ++ [1]) ∧
    interpretString I (reconstruct q (ascii ['a', '|', 'b']) .str) = .error .rejected := by
  have ha : interpretString I (ascii ['s', 't', 'r', ':', 'a']) = .ok (ascii ['a']) :=
    interpretString_simple (by decide) (by decide) (by decide) (by unfold NoBar; decide) rfl
  have h1 : interpretString I (ascii ['1']) = .ok [1] :=
    interpretString_simple (by decide) (by decide) (by decide) (by unfold NoBar; decide) rfl
  have hb : interpretString I (ascii ['b']) = .error .rejected :=
    interpretString_simple (by decide) (by decide) (by decide) (by unfold NoBar; decide) rfl
  constructor
  · rw [interpretString_split rfl rfl (by simp only [reconstruct]; decide)]
    show concatAll ([ascii ['s', 't', 'r', ':', 'a'], ascii ['1']].map (interpretString I)) = _
    simp only [List.map_cons, List.map_nil, ha, h1]; rfl
  · rw [interpretString_split rfl rfl (by simp only [reconstruct]; decide)]
    show concatAll ([ascii ['s', 't', 'r', ':', 'a'], ascii ['b']].map (interpretString I)) = _
    simp only [List.map_cons, List.map_nil, ha, hb]; rfl

/-! ### Trees -/

theorem interpretTrees_map (I : Interpreter) (l : List Json) : interpretTrees I l = l.map (interpretTree I) := by
  induction l with
  | nil => rfl
  | cons j l ih => rw [interpretTrees, ih]; rfl

theorem interpretPairs_map (I : Interpreter) (l : List (Bytes × Json)) :
    interpretPairs I l = l.map (fun p => (p.1, interpretTree I p.2)) := by
  induction l with
  | nil => rfl
  | cons p l ih => rw [interpretPairs, ih]; rfl

theorem insertKey_map {α β : Type} (f : α → β) (p : Bytes × α) (l : List (Bytes × α)) :
    insertKey (p.1, f p.2) (l.map (fun p => (p.1, f p.2))) = (insertKey p l).map (fun p => (p.1, f p.2)) := by
  induction l with
  | nil => rfl
  | cons a l ih =>
    simp only [List.map_cons, insertKey]
    split
    · rfl
    · rw [List.map_cons, ih]

theorem sortByKey_map {α β : Type} (f : α → β) (l : List (Bytes × α)) :
    sortByKey (l.map (fun p => (p.1, f p.2))) = (sortByKey l).map (fun p => (p.1, f p.2)) := by
  induction l with
  | nil => rfl
  | cons a l ih => rw [List.map_cons, sortByKey, ih, insertKey_map]; rfl

theorem bytesLe_total : ∀ a b : Bytes, bytesLe a b = false → bytesLe b a = true
  | [], _, h => by cases h
  | _ :: _, [], _ => rfl
  | x :: a, y :: b, h => by
    simp only [bytesLe] at h ⊢
    by_cases e : x = y
    · rw [if_pos e] at h; rw [if_pos e.symm]; exact bytesLe_total a b h
    · rw [if_neg e] at h; rw [if_neg (fun e' => e e'.symm)]
      have h1 : ¬ x.toNat < y.toNat := by simpa using h
      have h2 : x.toNat ≠ y.toNat := fun h => e (UInt8.toNat_inj.1 h)
      exact decide_eq_true (by omega)

theorem bytesLe_trans : ∀ a b c : Bytes, bytesLe a b = true → bytesLe b c = true → bytesLe a c = true
  | [], _, _, _, _ => rfl
  | _ :: _, [], _, h, _ => by cases h
  | _ :: _, _ :: _, [], _, h => by cases h
  | x :: a, y :: b, z :: c, h1, h2 => by
    simp only [bytesLe] at h1 h2 ⊢
    by_cases e1 : x = y
    · subst e1
      rw [if_pos rfl] at h1
      by_cases e2 : x = z
      · rw [if_pos e2] at h2 ⊢; exact bytesLe_trans a b c h1 h2
      · rw [if_neg e2] at h2 ⊢; exact h2
    · rw [if_neg e1] at h1
      have h1 := of_decide_eq_true h1
      by_cases e2 : y = z
      · subst e2; rw [if_neg e1]; exact decide_eq_true h1
      · rw [if_neg e2] at h2
        have h2 := of_decide_eq_true h2
        rw [if_neg (by rintro rfl; omega)]
        exact decide_eq_true (by omega)

theorem bytesLe_antisymm : ∀ a b : Bytes, bytesLe a b = true → bytesLe b a = true → a = b
  | [], [], _, _ => rfl
  | [], _ :: _, _, h => by cases h
  | _ :: _, [], h, _ => by cases h
  | x :: a, y :: b, h1, h2 => by
    simp only [bytesLe] at h1 h2
    by_cases e : x = y
    · subst e
      rw [if_pos rfl] at h1 h2
      rw [bytesLe_antisymm a b h1 h2]
    · rw [if_neg e] at h1; rw [if_neg (fun e' => e e'.symm)] at h2
      have h1 := of_decide_eq_true h1
      have h2 := of_decide_eq_true h2
      omega

theorem bytesLe_append (p a b : Bytes) : bytesLe (p ++ a) (p ++ b) = bytesLe a b := by
  induction p with
  | nil => rfl
  | cons x p ih => simp only [List.cons_append, bytesLe, if_true, ih]

theorem bytesLe_of_before {a b : Bytes} (h : Before a b) : bytesLe a b = true := by
  rcases h with ⟨y, t, rfl⟩ | ⟨p, x, y, s, t, rfl, rfl, h⟩
  · have := bytesLe_append a [] (y :: t)
    rw [List.append_nil] at this
    rw [this]; rfl
  · rw [bytesLe_append, bytesLe, if_neg (by rintro rfl; omega)]
    exact decide_eq_true h

theorem insertKey_perm {α : Type} (p : Bytes × α) (l : List (Bytes × α)) : (insertKey p l).Perm (p :: l) := by
  induction l with
  | nil => exact .refl _
  | cons q l ih =>
    rw [insertKey]
    split
    · exact .refl _
    · exact (ih.cons q).trans (.swap p q l)

theorem sortByKey_perm {α : Type} (l : List (Bytes × α)) : (sortByKey l).Perm l := by
  induction l with
  | nil => exact .refl _
  | cons p l ih => exact (insertKey_perm p _).trans (ih.cons p)

theorem insertKey_sorted {α : Type} (p : Bytes × α) {l : List (Bytes × α)} (h : l.Pairwise (fun a b => bytesLe a.1 b.1 = true)) :
    (insertKey p l).Pairwise (fun a b => bytesLe a.1 b.1 = true) := by
  induction l with
  | nil => exact List.pairwise_singleton _ _
  | cons q l ih =>
    rw [insertKey]
    rw [List.pairwise_cons] at h
    split
    · rename_i hle
      refine List.pairwise_cons.2 ⟨fun a ha => ?_, List.pairwise_cons.2 h⟩
      rcases List.mem_cons.1 ha with rfl | ha
      · exact hle
      · exact bytesLe_trans _ _ _ hle (h.1 a ha)
    · rename_i hle
      refine List.pairwise_cons.2 ⟨fun a ha => ?_, ih h.2⟩
      rcases List.mem_cons.1 ((insertKey_perm p l).mem_iff.1 ha) with rfl | ha
      · exact bytesLe_total _ _ (Bool.eq_false_iff.2 hle)
      · exact h.1 a ha

theorem sortByKey_sorted {α : Type} (l : List (Bytes × α)) : (sortByKey l).Pairwise (fun a b => bytesLe a.1 b.1 = true) := by
  induction l with
  | nil => exact .nil
  | cons p l ih => exact insertKey_sorted p ih

theorem eq_of_key {α : Type} {l : List (Bytes × α)} (h : (l.map Prod.fst).Nodup) {p q : Bytes × α} (hp : p ∈ l) (hq : q ∈ l)
    (e : p.1 = q.1) : p = q := by
  induction l with
  | nil => cases hp
  | cons a l ih =>
    rw [List.map_cons, List.nodup_cons] at h
    rcases List.mem_cons.1 hp with rfl | hp
    · rcases List.mem_cons.1 hq with rfl | hq
      · rfl
      · exact absurd (List.mem_map.2 ⟨q, hq, e.symm⟩) h.1
    · rcases List.mem_cons.1 hq with hq | hq
      · exact absurd (List.mem_map.2 ⟨p, hp, by rw [e, hq]⟩) h.1
      · exact ih h.2 hp hq

theorem sortByKey_unique {l l' : List (Bytes × Json)} (h : (l.map Prod.fst).Nodup) (hp : l'.Perm l)
    (hs : l'.Pairwise (fun a b => bytesLe a.1 b.1 = true)) : sortByKey l = l' := by
  refine List.Perm.eq_of_pairwise (le := fun a b => bytesLe a.1 b.1 = true) ?_ (sortByKey_sorted l) hs
    ((sortByKey_perm l).trans hp.symm)
  intro a b ha hb h1 h2
  exact eq_of_key h ((sortByKey_perm l).mem_iff.1 ha) (hp.mem_iff.1 hb) (bytesLe_antisymm _ _ h1 h2)

/-- **Trees.** A string is an expression; a list evaluates to its values one after the other; a map evaluates like the list of its
values in the order of their keys; a boolean is rejected. -/
theorem c40_tree (I : Interpreter) :
    (∀ v, interpretTree I (.str v) = interpretString I v) ∧
    (interpretTree I (.list []) = .ok []) ∧
    (∀ j l r, interpretTree I (.list (j :: l)) = .ok r ↔
      ∃ a b, interpretTree I j = .ok a ∧ interpretTree I (.list l) = .ok b ∧ r = a ++ b) ∧
    (∀ l l', (l.map Prod.fst).Nodup → l'.Perm l → InKeyOrder l' →
      interpretTree I (.map l) = interpretTree I (.list (l'.map Prod.snd))) ∧
    (∀ b, interpretTree I (.bool b) = .error .rejected) := by
  refine ⟨fun v => by rw [interpretTree], by rw [interpretTree, interpretTrees]; rfl, ?_, ?_, fun b => by rw [interpretTree]⟩
  · intro j l r
    rw [interpretTree, interpretTree, interpretTrees]
    cases interpretTree I j with
    | error e => exact ⟨(fun h => by cases h), fun ⟨_, _, h, _⟩ => by cases h⟩
    | ok a =>
      simp only [concatAll]
      cases concatAll (interpretTrees I l) with
      | error e => exact ⟨(fun h => by cases h), fun ⟨_, _, _, h, _⟩ => by cases h⟩
      | ok b =>
        constructor
        · intro h; cases h; exact ⟨a, b, rfl, rfl, rfl⟩
        · rintro ⟨_, _, h1, h2, rfl⟩; cases h1; cases h2; rfl
  · intro l l' hn hp hk
    rw [interpretTree, interpretTree, interpretPairs_map, sortByKey_map, interpretTrees_map]
    rw [sortByKey_unique hn hp (hk.imp bytesLe_of_before)]
    rw [List.map_map, List.map_map]
    rfl

/-- **The order in which a map is written does not matter.** -/
theorem c40_order (I : Interpreter) {l l' : List (Bytes × Json)} (hn : (l.map Prod.fst).Nodup) (hp : l'.Perm l) :
    interpretTree I (.map l') = interpretTree I (.map l) := by
  rw [interpretTree, interpretTree, interpretPairs_map, interpretPairs_map, sortByKey_map, sortByKey_map,
    sortByKey_unique hn ((sortByKey_perm l').trans hp) (sortByKey_sorted l')]

/-! ### The hypotheses can be met -/

/-- `u16:1,000` and `i8:-5` as parts of one expression -/
example (I : Interpreter) : interpretString I (ascii ['u', '1', '6', ':', '1', ',', '0', '0', '0', '|', 'i', '8', ':', '-', '5']) =
    .ok [3, 232, 251] := by
  have h1 : interpretString I (ascii ['u', '1', '6', ':', '1', ',', '0', '0', '0']) = .ok [3, 232] :=
    interpretString_simple (by decide) (by decide) (by decide) (by unfold NoBar; decide) rfl
  have h2 : interpretString I (ascii ['i', '8', ':', '-', '5']) = .ok [251] :=
    interpretString_simple (by decide) (by decide) (by decide) (by unfold NoBar; decide) rfl
  refine (c40_concat I (ps := [ascii ['u', '1', '6', ':', '1', ',', '0', '0', '0'], ascii ['i', '8', ':', '-', '5']])
    (by unfold NoBar; decide) (by decide) (by decide) _).2 ?_
  exact .cons h1 (.cons h2 .nil)

/-- numbers in the three notations, with and without grouping -/
example : Numeral (ascii ['1', ',', '0', '_', '0', '0']) 1000 ∧ Numeral (ascii ['0', 'x', 'f', 'F', '1']) 4081 ∧
    Numeral (ascii ['0', 'b', '1', '_', '0', '1']) 5 :=
  ⟨(unsignedNumber_ok (b := [3, 232]) rfl).1, (unsignedNumber_ok (b := [15, 241]) rfl).1, (unsignedNumber_ok (b := [5]) rfl).1⟩

/-- the address of a contract in the shard 32, and its name -/
example (I : Interpreter) (q : Bytes → Bytes) :
    interpretString I (reconstruct q (List.replicate 8 0 ++ ascii ['d', 'e', 'x'] ++ List.replicate 20 95 ++ [32]) .address) =
      .ok (List.replicate 8 0 ++ ascii ['d', 'e', 'x'] ++ List.replicate 20 95 ++ [32]) :=
  c40_back_address_partial I q (by decide) (by decide) (by decide)

end Arwen.Props
