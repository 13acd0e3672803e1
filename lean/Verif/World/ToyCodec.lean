import Verif.World.Esdt
/-
A concrete encoding of tokens and roles, for examples only: it shows that encodings as they are assumed exist. The real ones are
protocol buffers.
-/
namespace Arwen.Toy
open Mock

def encB : Bytes → Bytes
  | [] => [0]
  | x :: l => 1 :: x :: encB l

def decB : Bytes → Option (Bytes × Bytes)
  | 0 :: r => some ([], r)
  | 1 :: x :: r => match decB r with
    | some (l, r') => some (x :: l, r')
    | none => none
  | _ => none

theorem decB_encB (l r : Bytes) : decB (encB l ++ r) = some (l, r) := by
  induction l with
  | nil => rfl
  | cons x l ih => simp only [encB, List.cons_append, decB, ih]

def encL : List Bytes → Bytes
  | [] => [0]
  | b :: l => 1 :: (encB b ++ encL l)

def decL : Nat → Bytes → Option (List Bytes × Bytes)
  | 0, _ => none
  | f + 1, 1 :: r => match decB r with
    | some (b, r) => match decL f r with
      | some (l, r) => some (b :: l, r)
      | none => none
    | none => none
  | _ + 1, 0 :: r => some ([], r)
  | _ + 1, _ => none

theorem decL_encL (l : List Bytes) : ∀ (f : Nat) (r : Bytes), l.length < f → decL f (encL l ++ r) = some (l, r) := by
  induction l with
  | nil =>
    intro f r h
    cases f with
    | zero => simp at h
    | succ f => rfl
  | cons b l ih =>
    intro f r h
    cases f with
    | zero => simp at h
    | succ f =>
      simp only [encL, List.cons_append, List.append_assoc, decL, decB_encB]
      rw [ih f r (by simpa using h)]

theorem length_encL (l : List Bytes) : l.length < (encL l).length := by
  induction l with
  | nil => simp [encL]
  | cons b l ih => simp only [encL, List.length_cons, List.length_append]; omega

def encN (n : Nat) : Bytes := encB (natToBytes n)
def decN (b : Bytes) : Option (Nat × Bytes) := (decB b).map (fun p => (bytesToNat p.1, p.2))

theorem decN_encN (n : Nat) (r : Bytes) : decN (encN n ++ r) = some (n, r) := by
  simp [decN, encN, decB_encB]

def encMeta (m : TokenMeta) : Bytes :=
  encN m.nonce.toNat ++ (encB m.name ++ (encB m.creator ++ (encN m.royalties.toNat ++ (encB m.hash ++ (encB m.attributes ++ encL m.uris)))))

def decMeta (b : Bytes) : Option TokenMeta := do
  let (nonce, b) ← decN b
  let (name, b) ← decB b
  let (creator, b) ← decB b
  let (royalties, b) ← decN b
  let (hash, b) ← decB b
  let (attributes, b) ← decB b
  let (uris, _) ← decL b.length b
  some { nonce := UInt64.ofNat nonce, name, creator, royalties := UInt32.ofNat royalties, hash, uris, attributes }

theorem decMeta_encMeta (m : TokenMeta) : decMeta (encMeta m) = some m := by
  have h := decL_encL m.uris (encL m.uris).length [] (length_encL _)
  rw [List.append_nil] at h
  simp only [decMeta, encMeta, decN_encN, decB_encB, Option.bind_eq_bind, Option.bind_some, h, UInt64.ofNat_toNat, UInt32.ofNat_toNat]

def encToken (t : TokenRec) : Bytes :=
  (if t.value < 0 then 1 else 0) :: (encN t.value.natAbs ++ (encN t.tokenType.toNat ++ (encB t.properties ++
    (match t.metadata with | none => [0] | some m => 1 :: encMeta m))))

def decToken : Bytes → Option TokenRec
  | [] => none
  | s :: b => do
    let (value, b) ← decN b
    let (tokenType, b) ← decN b
    let (properties, b) ← decB b
    let v : Int := if s = 1 then - (value : Int) else value
    match b with
    | 0 :: _ => some { value := v, tokenType := UInt32.ofNat tokenType, properties }
    | 1 :: r => match decMeta r with
      | some m => some { value := v, tokenType := UInt32.ofNat tokenType, properties, metadata := some m }
      | none => none
    | _ => none

theorem decToken_encToken (t : TokenRec) : decToken (encToken t) = some t := by
  obtain ⟨v, ty, pr, md⟩ := t
  have hv : (if v < 0 then -(v.natAbs : Int) else v.natAbs) = v := by split <;> omega
  simp only [decToken, encToken, decN_encN, decB_encB, Option.bind_eq_bind, Option.bind_some]
  cases md with
  | none => simp [hv]
  | some m => simp [hv, decMeta_encMeta]

/-- an encoding for examples -/
def codec : TokenCodec where
  token := encToken
  untoken := decToken
  roles := encL
  unroles b := (decL b.length b).map Prod.fst

end Arwen.Toy
