import Verif.Spec.Builtins
import Verif.Mandos.ExprLemmas
import Verif.World.ToyCodec
/-
C85: built-in functions called in the mock world.
-/
namespace Arwen.Props
open Arwen.Mock

theorem accountSharded_of {w : MockWorld} {a : Addr} {h : Option Addr} (g : Spec.GivenAccount w a h) : w.accountSharded a = some h := by
  cases g with
  | here acc ha hs => simp [MockWorld.accountSharded, MockWorld.computeId, MockWorld.account, ha, hs]
  | elsewhere acc ha hs => simp [MockWorld.accountSharded, MockWorld.computeId, MockWorld.account, ha, hs]

/-- for every address with an account there is exactly one answer -/
theorem c85_given (w : MockWorld) (a : Addr) (acc : WAcc) (h : w.accts.get? a = some acc) : ∃ o, Spec.GivenAccount w a o ∧
    ∀ o', Spec.GivenAccount w a o' → o' = o := by
  by_cases hs : acc.shard = w.selfShard
  · refine ⟨some a, .here acc h hs, ?_⟩
    intro o' g
    cases g with
    | here => rfl
    | elsewhere acc' h' hs' => rw [h] at h'; cases h'; exact absurd hs hs'
  · refine ⟨none, .elsewhere acc h hs, ?_⟩
    intro o' g
    cases g with
    | here acc' h' hs' => rw [h] at h'; cases h'; exact absurd hs' hs
    | elsewhere => rfl

/-- A call of a built-in function runs the function of that name, once, on the world as it is, with the accounts of the caller and of
the recipient as far as they are in the own shard, and with the input unchanged. What the function answers and does to the world is
what the call answers and does. A name that is not in the table is refused and the world stays as it is. -/
theorem c85_call (T : BuiltinTable) (w : MockWorld) (i : CallInput) (hc hr : Option Addr) (he : w.err = none)
    (gc : Spec.GivenAccount w i.vm.caller hc) (gr : Spec.GivenAccount w i.recipient hr) :
    (∀ f, T.get? i.function = some f → hookBuiltIn (some T) w i = some (f w hc hr i)) ∧
    (T.get? i.function = none → ∃ e, hookBuiltIn (some T) w i = some (.error e, w)) := by
  refine ⟨fun f hf => ?_, fun hf => ⟨unknownBuiltin, ?_⟩⟩ <;>
    simp [hookBuiltIn, he, processBuiltIn, accountSharded_of gc, accountSharded_of gr, hf]

/-- A world that is told to fail answers every call of a built-in function and every question about a token with the error that it was
told; one without built-in functions refuses them. Neither changes anything or reads an account. -/
theorem c85_refused (C : TokenCodec) (T : Option BuiltinTable) (w : MockWorld) (i : CallInput) (a : Addr) (name : Bytes)
    (nonce : UInt64) :
    (∀ e, w.err = some e → hookBuiltIn T w i = some (.error e, w) ∧ hookToken C T w a name nonce = some (.error e)) ∧
    (w.err = none → T = none →
      ∃ e, hookBuiltIn T w i = some (.error e, w) ∧ hookToken C T w a name nonce = some (.error e)) := by
  refine ⟨fun e he => ?_, fun he hT => ⟨noWrapper, ?_⟩⟩
  · simp [hookBuiltIn, hookToken, he]
  · subst hT; simp [hookBuiltIn, hookToken, he]

/-- The names that the world offers are exactly the names under which a call finds a function. -/
theorem c85_names (T : BuiltinTable) : ∃ l, builtinNames (some T) = some l ∧ ∀ name, name ∈ l ↔ ∃ f, T.get? name = some f := by
  refine ⟨_, rfl, fun name => ?_⟩
  constructor
  · intro h
    obtain ⟨⟨k, f⟩, hm, rfl⟩ := List.mem_map.1 h
    exact ⟨f, (T.mem_entries_iff _ _).1 hm⟩
  · rintro ⟨f, hf⟩
    exact List.mem_map.2 ⟨(name, f), (T.mem_entries_iff _ _).2 hf, rfl⟩

theorem ascii_transfer : esdtTransferName = Mandos.ascii "ESDTTransfer".toList := by decide +kernel
theorem ascii_nftTransfer : esdtNftTransferName = Mandos.ascii "ESDTNFTTransfer".toList := by decide +kernel

theorem shortForm_natToBytes (n : Nat) : Spec.ShortForm n (natToBytes n) :=
  ⟨bytesToNat_natToBytes n, fun h => natToBytes_head n 0 h rfl⟩

theorem directInput_makes (sender receiver token : Bytes) (nonce : UInt64) (value : Int) (ct : CallType) (gas price : UInt64) :
    Spec.MakesTransfer sender receiver token nonce value gas price
      (directInput sender receiver token nonce value ct gas price) := by
  by_cases h : nonce > 0
  · have h0 : nonce ≠ 0 := by intro h0; subst h0; revert h; decide
    have he : directInput sender receiver token nonce value ct gas price =
        { vm := { caller := sender, callType := ct, gasPrice := price, gasProvided := gas,
                  args := [token, natToBytes nonce.toNat, natToBytes value.natAbs, receiver] },
          recipient := sender, function := esdtNftTransferName } := by simp [directInput, h]
    rw [he]
    exact ⟨rfl, rfl, rfl, ⟨rfl, rfl, rfl, rfl⟩, fun h => absurd h h0,
      fun _ => ⟨rfl, ascii_nftTransfer, _, _, shortForm_natToBytes _, shortForm_natToBytes _, rfl⟩⟩
  · have h0 : nonce = 0 := by grind
    subst h0
    exact ⟨rfl, rfl, rfl, ⟨rfl, rfl, rfl, rfl⟩, fun _ => ⟨rfl, ascii_transfer, _, shortForm_natToBytes _, rfl⟩, fun h => absurd rfl h⟩

/-- The short forms of the numbers in a transfer are unique, so the input is determined up to the type of the call. -/
theorem shortForm_unique {n : Nat} {b : Bytes} (h : Spec.ShortForm n b) : b = natToBytes n := by
  rw [← h.1, natToBytes_bytesToNat b (fun x hx h0 => h.2 (by rw [hx, h0]))]

/-- A transfer of tokens that a step of a scenario makes before the contract runs is one call of the built-in function for it, by the
sender, with the token, the nonce, the amount and the receiver of the step; it succeeds with the gas that the function leaves exactly if
the function answers with the return code `ok`, and the world is as the function leaves it in any case. -/
theorem c85_direct (T : BuiltinTable) (L : Lib) (w : MockWorld) (tx : ScTx) (e : EsdtTx)
    (hL : ∀ i, processBuiltIn T w i = some (L.builtin w i) ∨ processBuiltIn T w i = none) (hc hr : Option Addr)
    (gs : Spec.GivenAccount w tx.sender hc) (gr : Spec.GivenAccount w (if e.nonce = 0 then tx.to else tx.sender) hr) :
    ∃ i, Spec.MakesTransfer tx.sender tx.to e.token e.nonce e.value tx.gasLimit tx.gasPrice i ∧
      ∀ f, T.get? i.function = some f →
        (directEsdt L w tx e).2 = (f w hc hr i).2 ∧
        ∀ gas, (directEsdt L w tx e).1 = some gas ↔
          ∃ b, (f w hc hr i).1 = .ok b ∧ b.out.returnCode = .ok ∧ gas = b.out.gasRemaining := by
  refine ⟨directInput tx.sender tx.to e.token e.nonce e.value .directCall tx.gasLimit tx.gasPrice, directInput_makes .., ?_⟩
  intro f hf
  have hd : directEsdt L w tx e = match L.builtin w (directInput tx.sender tx.to e.token e.nonce e.value .directCall tx.gasLimit
      tx.gasPrice) with
    | (.error _, w) => (none, w)
    | (.ok b, w) => if b.out.returnCode ≠ .ok then (none, w) else (some b.out.gasRemaining, w) := rfl
  have hp : processBuiltIn T w (directInput tx.sender tx.to e.token e.nonce e.value .directCall tx.gasLimit tx.gasPrice) =
      some (f w hc hr (directInput tx.sender tx.to e.token e.nonce e.value .directCall tx.gasLimit tx.gasPrice)) := by
    have m := directInput_makes tx.sender tx.to e.token e.nonce e.value .directCall tx.gasLimit tx.gasPrice
    have h1 : (directInput tx.sender tx.to e.token e.nonce e.value .directCall tx.gasLimit tx.gasPrice).recipient =
        if e.nonce = 0 then tx.to else tx.sender := by
      split
      · exact (m.fungible ‹_›).1
      · exact (m.single ‹_›).1
    simp only [processBuiltIn, m.caller, h1, accountSharded_of gs, accountSharded_of gr, hf]
  have hb := hL (directInput tx.sender tx.to e.token e.nonce e.value .directCall tx.gasLimit tx.gasPrice)
  rw [hp] at hb
  have hb : f w hc hr (directInput tx.sender tx.to e.token e.nonce e.value .directCall tx.gasLimit tx.gasPrice) = L.builtin w
      (directInput tx.sender tx.to e.token e.nonce e.value .directCall tx.gasLimit tx.gasPrice) := by simpa using hb
  rw [hd, hb]
  generalize L.builtin w (directInput tx.sender tx.to e.token e.nonce e.value .directCall tx.gasLimit tx.gasPrice) = r
  obtain ⟨r, w'⟩ := r
  cases r with
  | error x => simp
  | ok b =>
    by_cases hk : b.out.returnCode = .ok
    · simp [hk, eq_comm]
    · simp [hk]

/-- The same transfer through the table itself, for any type of call. -/
theorem c85_transfer (T : BuiltinTable) (w : MockWorld) (sender receiver token : Bytes) (nonce : UInt64) (value : Int) (ct : CallType)
    (gas price : UInt64) (hc hr : Option Addr) (gs : Spec.GivenAccount w sender hc)
    (gr : Spec.GivenAccount w (if nonce = 0 then receiver else sender) hr) :
    ∃ i, Spec.MakesTransfer sender receiver token nonce value gas price i ∧ i.vm.callType = ct ∧
      ∀ f, T.get? i.function = some f → ∃ r,
        directTransfer T w (directInput sender receiver token nonce value ct gas price) = some (r, (f w hc hr i).2) ∧
        ∀ g, r = some g ↔ ∃ b, (f w hc hr i).1 = .ok b ∧ b.out.returnCode = .ok ∧ g = b.out.gasRemaining := by
  refine ⟨_, directInput_makes sender receiver token nonce value ct gas price, ?_, ?_⟩
  · simp only [directInput]; split <;> rfl
  intro f hf
  have m := directInput_makes sender receiver token nonce value ct gas price
  have h1 : (directInput sender receiver token nonce value ct gas price).recipient = if nonce = 0 then receiver else sender := by
    split
    · exact (m.fungible ‹_›).1
    · exact (m.single ‹_›).1
  simp only [directTransfer, processBuiltIn, m.caller, h1, accountSharded_of gs, accountSharded_of gr, hf]
  generalize f w hc hr (directInput sender receiver token nonce value ct gas price) = r
  obtain ⟨r, w'⟩ := r
  cases r with
  | error x => exact ⟨none, rfl, by simp⟩
  | ok b =>
    by_cases hk : b.out.returnCode = .ok
    · exact ⟨some b.out.gasRemaining, by simp [hk], by simp [hk, eq_comm]⟩
    · exact ⟨none, by simp [hk], by simp [hk]⟩

theorem tokenPrefix_ascii : tokenPrefix = Mandos.ascii "ELRONDesdt".toList := by decide +kernel

/-- A question about a token of an account is answered from the storage of that account: with the record under the key of the token and
its nonce, with a record of nothing if there is none, and with an error exactly if the record cannot be decoded. -/
theorem c85_token (C : TokenCodec) (T : BuiltinTable) (w : MockWorld) (a : Addr) (acc : WAcc) (name : Bytes) (nonce : UInt64)
    (he : w.err = none) (ha : w.accts.get? a = some acc) :
    (∀ t, hookToken C (some T) w a name nonce = some (.ok t) → Spec.HoldsToken C acc.storage name nonce t) ∧
    ((∃ e, hookToken C (some T) w a name nonce = some (.error e)) ↔
      ∃ v, acc.storage.get? (makeTokenKey name nonce) = some v ∧ v ≠ [] ∧ C.untoken v = none) ∧
    hookToken C (some T) w a name nonce ≠ none := by
  have hk : makeTokenKey name nonce = Mandos.ascii "ELRONDesdt".toList ++ name ++ natToBytes nonce.toNat := by
    rw [makeTokenKey, tokenPrefix_ascii]
  simp only [hookToken, he, wrapperToken, MockWorld.account, ha, getTokenData, Spec.HoldsToken, ← hk]
  cases hg : acc.storage.get? (makeTokenKey name nonce) with
  | none => simp
  | some v =>
    by_cases hv : v = []
    · simp [hv]
    · cases hu : C.untoken v with
      | none => simp [hv, hu]
      | some t => simp [hv, hu]

/-- A balance of a token that a test sets is the balance that is read back, in the record that was there before; a negative balance is
refused, and nothing else in the world changes. -/
theorem c85_balance (C : TokenCodec) (hC : ∀ t, C.untoken (C.token t) = some t ∧ C.token t ≠ []) (w w' : MockWorld) (a : Addr)
    (key : Bytes) (v : Int) (ok : Bool) (h : wrapperSetBalance C w a key v = some (ok, w')) :
    (ok = true → 0 ≤ v ∧ wrapperBalance C w' a key = some (.ok v) ∧ (∀ b, b ≠ a → w'.accts.get? b = w.accts.get? b) ∧
      ∀ k, k ≠ key → (w'.accts.get? a).map (fun x => x.storage.get? k) = (w.accts.get? a).map (fun x => x.storage.get? k)) ∧
    (ok = false → w' = w) ∧ (v < 0 → ok = false) := by
  simp only [wrapperSetBalance, MockWorld.account] at h
  cases ha : w.accts.get? a with
  | none => simp [ha] at h
  | some acc =>
    simp only [ha] at h
    cases hs : setTokenBalance C acc.storage key v with
    | none =>
      simp only [hs, Option.some.injEq, Prod.mk.injEq] at h
      obtain ⟨rfl, rfl⟩ := h
      simp
    | some st =>
      simp only [hs, Option.some.injEq, Prod.mk.injEq] at h
      obtain ⟨rfl, rfl⟩ := h
      simp only [setTokenBalance] at hs
      cases ht : getTokenData C acc.storage key with
      | none => simp [ht] at hs
      | some t =>
        simp only [ht] at hs
        split at hs
        · cases hs
        · rename_i hv
          cases hs
          refine ⟨fun _ => ⟨by omega, ?_, ?_, ?_⟩, by simp, fun hlt => absurd hlt hv⟩
          · simp [wrapperBalance, MockWorld.account, MockWorld.put, getTokenBalance, getTokenData, setTokenData, hC]
          · intro b hb; simp [MockWorld.put, AMap.get?_insert_ne _ _ (Ne.symm hb)]
          · intro k hk; simp [MockWorld.put, setTokenData, ha, AMap.get?_insert_ne _ _ (Ne.symm hk)]

theorem dns_interpret (keccak : Bytes → Bytes) (k : UInt8) :
    Mandos.interpretString { resolver := none, keccak := keccak } (dnsExpr k) = .ok (Spec.dnsAddress k) := by
  have hs : ∀ k : UInt8, (match Mandos.simpleExpr (dnsExpr k) with | some (.ok a) => a == Spec.dnsAddress k | _ => false) = true ∧
      dnsExpr k ≠ [] ∧ Mandos.filePrefix.isPrefixOf (dnsExpr k) = false ∧ Mandos.keccakPrefix.isPrefixOf (dnsExpr k) = false ∧
      Mandos.bar ∉ dnsExpr k := by
    apply forall_uint8; decide +kernel
  obtain ⟨h, h0, hf, hk, hb⟩ := hs k
  refine Mandos.interpretString_simple h0 hf hk hb ?_
  split at h
  · rename_i he; rw [he, eq_of_beq h]
  · cases h

/-- The contracts that are known as name servers are those whose addresses scenarios write as `sc:dns#00` to `sc:dns#fe`. -/
theorem c85_dns_partial (keccak : Bytes → Bytes) (a : Bytes) : a ∈ dnsAddresses keccak numDns ↔ ∃ k, k ≠ 0xFF ∧ a = Spec.dnsAddress k := by
  simp only [dnsAddresses, dns_interpret, List.mem_map, List.mem_range]
  constructor
  · rintro ⟨n, hn, rfl⟩
    refine ⟨_, ?_, rfl⟩
    intro h
    have : (UInt8.ofNat n).toNat = 255 := by rw [h]; rfl
    have hn : n < 255 := hn
    rw [UInt8.toNat_ofNat'] at this
    omega
  · rintro ⟨k, hk, rfl⟩
    refine ⟨k.toNat, ?_, by simp⟩
    show k.toNat < 255
    have := k.toNat_lt
    have : k.toNat ≠ 255 := fun h => hk (UInt8.toNat_inj.1 h)
    omega

/-- The last name server, `sc:dns#ff`, is not among them: there are 256 expressions of the form, the list has 255 addresses. -/
theorem c85_dns_neg : ¬ ∀ (keccak : Bytes → Bytes) (k : UInt8), Spec.dnsAddress k ∈ dnsAddresses keccak numDns := by
  intro h
  obtain ⟨k, hk, he⟩ := (c85_dns_partial id _).1 (h id 0xFF)
  simp [Spec.dnsAddress] at he
  exact hk he.symm

/-- A call of a built-in function whose caller or recipient has no account is not answered at all: the program panics, also when there is
no function of that name. So does a question about a token of such an account. -/
theorem c85_missing_neg : ¬ ∀ (C : TokenCodec) (T : BuiltinTable) (w : MockWorld) (i : CallInput) (a : Addr) (name : Bytes)
    (nonce : UInt64), w.err = none → hookBuiltIn (some T) w i ≠ none ∧ hookToken C (some T) w a name nonce ≠ none := by
  intro h
  exact (h ⟨fun _ => [], fun _ => none, fun _ => [], fun _ => none⟩ AMap.empty {} { vm := {}, recipient := [], function := [] } [] [] 0
    rfl).1 rfl

/-- Exactly these calls and questions panic. -/
theorem c85_panics (C : TokenCodec) (T : BuiltinTable) (w : MockWorld) (i : CallInput) (a : Addr) (name : Bytes) (nonce : UInt64)
    (he : w.err = none) :
    (hookBuiltIn (some T) w i = none ↔ (w.accts.get? i.vm.caller = none ∨ w.accts.get? i.recipient = none)) ∧
    (hookToken C (some T) w a name nonce = none ↔ w.accts.get? a = none) := by
  refine ⟨?_, ?_⟩
  rotate_left
  · cases ha : w.accts.get? a with
    | none => simp [hookToken, he, wrapperToken, MockWorld.account, ha]
    | some acc => simpa using (c85_token C T w a acc name nonce he ha).2.2
  constructor
  · intro h
    apply Classical.byContradiction
    intro hn
    cases hc : w.accts.get? i.vm.caller with
    | none => exact hn (.inl hc)
    | some ca =>
      cases hr : w.accts.get? i.recipient with
      | none => exact hn (.inr hr)
      | some ra =>
        obtain ⟨o, g, -⟩ := c85_given w _ ca hc
        obtain ⟨o', g', -⟩ := c85_given w _ ra hr
        have := c85_call T w i o o' he g g'
        cases hf : T.get? i.function with
        | none => obtain ⟨e, h'⟩ := this.2 hf; rw [h] at h'; cases h'
        | some f => have := this.1 f hf; rw [h] at this; cases this
  · intro h
    have key : ∀ a, w.accts.get? a = none → w.accountSharded a = none := by
      intro a ha; simp [MockWorld.accountSharded, MockWorld.computeId, MockWorld.account, ha]
    simp only [hookBuiltIn, he, processBuiltIn]
    rcases h with h | h
    · rw [key _ h]
    · rw [key _ h]; cases w.accountSharded i.vm.caller <;> rfl

/-! ### The hypotheses can be met -/

/-- a world with an account in the own shard and one in another -/
def twoShards : MockWorld :=
  { accts := (AMap.empty.insert [1] { shard := 0 }).insert [2] { shard := 1, storage := AMap.empty.insert (makeTokenKey [7] 3) [9] } }
/-- a table with one function, which answers with the number of accounts that it was given and takes the nonce of the caller up -/
def oneFunction : BuiltinTable :=
  AMap.empty.insert esdtTransferName (fun w c r _ =>
    (.ok { out := { gasRemaining := UInt64.ofNat (c.toList.length + 10 * r.toList.length) } }, w.put [1] { nonce := 1 }))

example : Spec.GivenAccount twoShards [1] (some [1]) ∧ Spec.GivenAccount twoShards [2] none :=
  ⟨.here { shard := 0 } (by decide +kernel) (by decide), .elsewhere _ rfl (by decide)⟩

/-- a call across shards: the function is given the caller alone -/
example : ∃ b w, hookBuiltIn (some oneFunction) twoShards (directInput [1] [2] [7] 0 5 .directCall 100 1) = some (.ok b, w) ∧
    b.out.gasRemaining = 1 ∧ w.accts.get? [1] = some { nonce := 1 } := ⟨_, _, rfl, by decide, by decide +kernel⟩

/-- the hypothesis of `c85_direct` about the library is met by the library that asks the table -/
example (L : Lib) (T : BuiltinTable) (w : MockWorld) (i : CallInput) :
    let L' : Lib := { L with builtin := fun w i => (processBuiltIn T w i).getD (.error unknownBuiltin, w) }
    processBuiltIn T w i = some (L'.builtin w i) ∨ processBuiltIn T w i = none := by
  cases h : processBuiltIn T w i with
  | none => exact .inr rfl
  | some r => exact .inl (by simp [h])

example : directTransfer oneFunction twoShards (directInput [1] [2] [7] 0 5 .directCall 100 1) =
    some (some 1, twoShards.put [1] { nonce := 1 }) := by rfl
example : hookBuiltIn (some oneFunction) twoShards (directInput [1] [2] [7] 4 5 .directCall 100 1) =
    some (.error unknownBuiltin, twoShards) := by rfl
example (C : TokenCodec) (t : TokenRec) (h : C.untoken [9] = some t) :
    hookToken C (some oneFunction) twoShards [2] [7] 3 = some (.ok t) := by
  simp [hookToken, wrapperToken, twoShards, MockWorld.account, getTokenData, AMap.get?_insert, h]

/-- a codec as `c85_balance` asks for -/
example : ∀ t, Toy.codec.untoken (Toy.codec.token t) = some t ∧ Toy.codec.token t ≠ [] :=
  fun t => ⟨Toy.decToken_encToken t, by simp [Toy.codec, Toy.encToken]⟩

end Arwen.Props
