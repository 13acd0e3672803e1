import Verif.Spec.Ipc
/-
Messages between the node and the Arwen process: C35.
-/
namespace Arwen.Props
open Arwen Arwen.Spec Arwen.Ipc

/-! ### C35: framing -/

theorem le32_put (n : UInt32) (r : Bytes) : le32 (putLe32 n ++ r) = n := by
  simp only [putLe32, List.cons_append, le32]
  apply UInt32.toBitVec_inj.mp
  simp only [UInt32.toBitVec_or, UInt32.toBitVec_shiftLeft, UInt8.toBitVec_toUInt32, UInt32.toBitVec_toUInt8, UInt32.toBitVec_shiftRight]
  ext i hi
  simp
  have key : n.toBitVec[i] = n.toBitVec.getLsbD i := rfl
  by_cases h1 : i < 8
  · simp [h1, show i < 16 by omega, show i < 24 by omega, key]
  · by_cases h2 : i < 16
    · simp [h1, h2, show i < 24 by omega, show i - 8 < 8 by omega, show 8 + (i - 8) = i by omega, key]
    · by_cases h3 : i < 24
      · simp [h1, h2, h3, show ¬ i - 8 < 8 by omega, show i - 16 < 8 by omega, show 16 + (i - 16) = i by omega, key]
      · simp [h1, h2, h3, show ¬ i - 8 < 8 by omega, show ¬ i - 16 < 8 by omega, show i - 24 < 8 by omega,
          show 24 + (i - 24) = i by omega, key]

theorem readFull_spec (n : Nat) (cs : Stream) :
    (readFull n cs = none ↔ cs.flatten.length < n) ∧
    ∀ b r, readFull n cs = some (b, r) → b = cs.flatten.take n ∧ r.flatten = cs.flatten.drop n := by
  induction cs generalizing n with
  | nil =>
    cases n with
    | zero => simp [readFull]
    | succ n => simp [readFull]
  | cons c cs ih =>
    cases n with
    | zero => simp [readFull]
    | succ n =>
      rw [readFull, if_neg (Nat.succ_ne_zero n)]
      split
      · rename_i h
        have hi := ih (n + 1 - c.length)
        have ht : (c ++ cs.flatten).take (n + 1) = c ++ cs.flatten.take (n + 1 - c.length) := by
          rw [List.take_append, List.take_of_length_le h]
        have hd : (c ++ cs.flatten).drop (n + 1) = cs.flatten.drop (n + 1 - c.length) := by
          rw [List.drop_append, List.drop_of_length_le h, List.nil_append]
        refine ⟨?_, ?_⟩
        · rw [Option.map_eq_none_iff, hi.1]
          simp only [List.flatten_cons, List.length_append]
          omega
        · intro b r hb
          obtain ⟨⟨b', r'⟩, e, hh⟩ := Option.map_eq_some_iff.mp hb
          cases hh
          obtain ⟨e1, e2⟩ := hi.2 _ _ e
          rw [List.flatten_cons, ht, hd, e1]
          exact ⟨rfl, e2⟩
      · rename_i h
        refine ⟨?_, ?_⟩
        · simp only [reduceCtorEq, List.flatten_cons, List.length_append, false_iff]
          omega
        · intro b r hb
          cases hb
          rw [List.flatten_cons, List.flatten_cons, List.take_append, List.drop_append,
            show n + 1 - c.length = 0 by omega]
          simp

theorem readFull_zero (cs : Stream) : readFull 0 cs = some ([], cs) := by
  cases cs <;> rfl

theorem readFull_append (n : Nat) (cs : Stream) (b r : Bytes) (hb : b.length = n) (h : cs.flatten = b ++ r) :
    ∃ cs', readFull n cs = some (b, cs') ∧ cs'.flatten = r := by
  obtain ⟨h1, h2⟩ := readFull_spec n cs
  cases e : readFull n cs with
  | none => exact absurd (h1.mp e) (by rw [h, List.length_append]; omega)
  | some p =>
    obtain ⟨b', cs'⟩ := p
    obtain ⟨e1, e2⟩ := h2 _ _ e
    rw [h, List.take_append_of_le_length (by omega), List.take_of_length_le (by omega)] at e1
    rw [h, List.drop_append_of_le_length (by omega), List.drop_of_length_le (by omega), List.nil_append] at e2
    exact ⟨cs', by rw [e1], e2⟩

theorem readFull_short (n : Nat) (cs : Stream) (h : cs.flatten.length < n) : readFull n cs = none :=
  (readFull_spec n cs).1.mpr h

theorem header_length (n : Nat) (k : UInt32) : (header n k).length = 8 := rfl

theorem header_take (n : Nat) (k : UInt32) : le32 ((header n k).take 4) = UInt32.ofNat n := by
  show le32 (putLe32 (UInt32.ofNat n)) = _
  have := le32_put (UInt32.ofNat n) []
  rwa [List.append_nil] at this

theorem header_drop (n : Nat) (k : UInt32) : le32 ((header n k).drop 4) = k := by
  show le32 (putLe32 k) = _
  have := le32_put k []
  rwa [List.append_nil] at this

theorem frame_length (k : UInt32) (p : Bytes) : (frame k p).length = 8 + p.length := by
  rw [frame, List.length_append, header_length]

/-- a frame at the beginning of the stream is received as the message that was sent -/
theorem receiveFrame_ok (k : UInt32) (p r : Bytes) (cs : Stream) (hp : p.length < 2 ^ 32) (h : cs.flatten = frame k p ++ r) :
    ∃ cs', receiveFrame cs = some ((k, p), cs') ∧ cs'.flatten = r := by
  rw [frame, List.append_assoc] at h
  obtain ⟨cs1, e1, h1⟩ := readFull_append 8 cs _ _ rfl h
  have hn : (le32 ((header p.length k).take 4)).toNat = p.length := by
    rw [header_take, UInt32.toNat_ofNat_of_lt' hp]
  obtain ⟨cs2, e2, h2⟩ := readFull_append _ cs1 p r hn.symm h1
  refine ⟨cs2, ?_, h2⟩
  rw [receiveFrame, e1]
  dsimp only
  rw [e2, header_drop]

/-- a frame that was not delivered whole is not received -/
theorem receiveFrame_cut (k : UInt32) (p : Bytes) (cs : Stream) (hp : p.length < 2 ^ 32) (l : Nat) (hl : l < (frame k p).length)
    (h : cs.flatten = (frame k p).take l) : receiveFrame cs = none := by
  rw [frame_length] at hl
  have hlen : cs.flatten.length = l := by rw [h, List.length_take, frame_length]; omega
  rw [receiveFrame]
  by_cases h8 : l < 8
  · rw [readFull_short 8 cs (by omega)]
  · rw [frame, List.take_append, List.take_of_length_le (by rw [header_length]; omega), header_length] at h
    obtain ⟨cs1, e1, h1⟩ := readFull_append 8 cs _ _ rfl h
    have hn : (le32 ((header p.length k).take 4)).toNat = p.length := by
      rw [header_take, UInt32.toNat_ofNat_of_lt' hp]
    rw [e1]
    dsimp only
    rw [readFull_short _ cs1 (by rw [hn, h1, List.length_take]; omega)]

/-- **C35.** Whatever the pieces in which the pipe delivers them, messages are received as they were sent, in the same order, and
the receiver is left at the bytes that follow. -/
theorem c35_roundtrip (ms : List WireMsg) (cs : Stream) (r : Bytes) (hs : Short ms) (h : Delivers cs (written ms ++ r)) :
    ∃ cs', receiveMany ms.length cs = (ms, some cs') ∧ Delivers cs' r := by
  induction ms generalizing cs with
  | nil => exact ⟨cs, rfl, h⟩
  | cons m ms ih =>
    rw [Delivers, written, List.map_cons, List.flatten_cons, List.append_assoc] at h
    obtain ⟨cs1, e1, h1⟩ := receiveFrame_ok m.1 m.2 _ cs (hs m (.head _)) h
    obtain ⟨cs2, e2, h2⟩ := ih cs1 (fun x hx => hs x (.tail _ hx)) h1
    refine ⟨cs2, ?_, h2⟩
    rw [List.length_cons, receiveMany, e1]
    dsimp only
    rw [e2]

/-- **C35.** If the pipe breaks after any number of bytes, then exactly the messages that were written whole are received, and the
next attempt to receive ends in an error: no message is invented. -/
theorem c35_truncated (ms : List WireMsg) (cs : Stream) (l : Nat) (hs : Short ms) (hl : l < (written ms).length)
    (h : Delivers cs ((written ms).take l)) :
    ∃ j, j < ms.length ∧ receiveMany ms.length cs = (ms.take j, none) ∧
      (written (ms.take j)).length ≤ l ∧ l < (written (ms.take (j + 1))).length := by
  induction ms generalizing cs l with
  | nil => simp [written] at hl
  | cons m ms ih =>
    have hm := hs m (.head _)
    rw [Delivers] at h
    rw [written, List.map_cons, List.flatten_cons] at h hl
    by_cases hc : l < (frame m.1 m.2).length
    · rw [List.take_append_of_le_length (by omega)] at h
      refine ⟨0, by simp, ?_, by simp [written], ?_⟩
      · rw [List.length_cons, receiveMany, receiveFrame_cut m.1 m.2 cs hm l hc h]
        rfl
      · simpa [written] using hc
    · rw [List.take_append, List.take_of_length_le (by omega)] at h
      obtain ⟨cs1, e1, h1⟩ := receiveFrame_ok m.1 m.2 _ cs hm h
      rw [List.length_append] at hl
      obtain ⟨j, hj, e, ha, hb⟩ := ih cs1 (l - (frame m.1 m.2).length) (fun x hx => hs x (.tail _ hx))
        (by rw [written]; omega) h1
      refine ⟨j + 1, by simpa using hj, ?_, ?_, ?_⟩
      · rw [List.length_cons, receiveMany, e1]
        dsimp only
        rw [e]
        rfl
      · rw [List.take_succ_cons]
        simp only [written, List.map_cons, List.flatten_cons, List.length_append] at ha ⊢
        omega
      · rw [List.take_succ_cons]
        simp only [written, List.map_cons, List.flatten_cons, List.length_append] at hb ⊢
        omega

/-- The bound on the length is needed: of a message of exactly 4 GiB the receiver sees a message with no contents, and takes the
contents for the messages that follow. -/
theorem c35_long_neg (k : UInt32) (p r : Bytes) (cs : Stream) (hp : p.length = 2 ^ 32) (h : Delivers cs (written [(k, p)] ++ r)) :
    ∃ cs', receiveFrame cs = some ((k, []), cs') ∧ Delivers cs' (p ++ r) := by
  have h : cs.flatten = frame k p ++ r := by simpa [Delivers, written] using h
  rw [frame, List.append_assoc] at h
  obtain ⟨cs1, e1, h1⟩ := readFull_append 8 cs _ _ rfl h
  refine ⟨cs1, ?_, h1⟩
  have hz : (le32 ((header p.length k).take 4)).toNat = 0 := by
    rw [header_take, hp]
    decide
  rw [receiveFrame, e1]
  dsimp only
  rw [hz, readFull_zero]
  dsimp only
  rw [header_drop]

/-- two messages, delivered in pieces that do not respect the frames -/
example : ∃ ms : List WireMsg, ∃ cs : Stream, Short ms ∧ Delivers cs (written ms) ∧ ms.length = 2 ∧ cs.length = 3 ∧
    receiveMany 2 cs = (ms, some []) := by
  refine ⟨[(4, [9, 8, 7]), (300, [])], [(written [(4, [9, 8, 7]), (300, [])]).take 5, ((written [(4, [9, 8, 7]), (300, [])]).drop 5).take 9,
    (written [(4, [9, 8, 7]), (300, [])]).drop 14], ?_, ?_, rfl, rfl, ?_⟩
  · intro m hm
    rcases List.mem_cons.mp hm with rfl | hm
    · decide
    · rcases List.mem_cons.mp hm with rfl | hm
      · decide
      · cases hm
  · unfold Delivers
    decide
  · decide +kernel

end Arwen.Props
