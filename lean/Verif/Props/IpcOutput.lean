import Verif.Spec.Ipc
/-
Outputs and maps between the processes: C37.
-/
namespace Arwen.Props
open Arwen Arwen.Spec Arwen.Ipc

variable {K V : Type} [DecidableEq K]

theorem get_foldl_insert (l : List (K × V)) (m : AMap K V) (k : K) (hn : (l.map Prod.fst).Nodup) :
    (l.foldl (fun m p => m.insert p.1 p.2) m).get? k = (AMap.lookupL k l).or (m.get? k) := by
  induction l generalizing m with
  | nil => rfl
  | cons p l ih =>
    have hn' := List.nodup_cons.mp hn
    rw [List.foldl_cons, ih _ hn'.2, AMap.get?_insert]
    obtain ⟨a, v⟩ := p
    show _ = (if a = k then some v else AMap.lookupL k l).or _
    by_cases h : a = k
    · subst h
      rw [if_pos rfl, if_pos rfl, AMap.lookupL_none_iff.mpr hn'.1]
      rfl
    · rw [if_neg h, if_neg (fun e => h e)]

theorem get_mapOf (l : List (K × V)) (hn : (l.map Prod.fst).Nodup) (k : K) : (mapOf l).get? k = AMap.lookupL k l := by
  rw [mapOf, get_foldl_insert l _ k hn]
  cases AMap.lookupL k l <;> rfl

theorem lookupL_perm {l l' : List (K × V)} (h : l.Perm l') (hn : (l.map Prod.fst).Nodup) (k : K) :
    AMap.lookupL k l = AMap.lookupL k l' := by
  have hn' : (l'.map Prod.fst).Nodup := (h.map _).nodup_iff.mp hn
  cases e : AMap.lookupL k l' with
  | none => exact AMap.lookupL_none_iff.mpr fun hk => AMap.lookupL_none_iff.mp e ((h.map _).mem_iff.mp hk)
  | some v => exact AMap.lookupL_of_mem hn (h.mem_iff.mpr (AMap.lookupL_some_mem e))

/-- a map rebuilt from its entries in any order is the same map -/
theorem get_mapOf_perm (m : AMap K V) (l : List (K × V)) (h : l.Perm m.entries) (k : K) : (mapOf l).get? k = m.get? k := by
  have hn : (l.map Prod.fst).Nodup := (h.map _).nodup_iff.mpr m.nodup
  rw [get_mapOf l hn k]
  exact lookupL_perm h hn k

theorem serTransfer_convert (t : OutTransfer) : (SerTransfer.new t).convert = t := rfl

theorem serAcc_convert (ord : Orders) (hf : Fair ord) (a : RawAcc)
    (hs : ∀ q u, a.storage.get? q = some u → u.offset = q) : SameRawAcc (SerAcc.new ord a).convert a := by
  refine ⟨rfl, rfl, rfl, rfl, ?_, rfl, rfl, rfl, ?_, rfl⟩
  · intro k
    have hp := hf.storage a.storage
    show (mapOf (((ord.storage a.storage).map (·.2)).map fun u => (u.offset, u))).get? k = _
    have e : ((ord.storage a.storage).map (·.2)).map (fun u => (u.offset, u)) = ord.storage a.storage := by
      rw [List.map_map]
      conv => rhs; rw [← List.map_id (ord.storage a.storage)]
      apply List.map_congr_left
      intro p hpm
      have hm := (AMap.mem_entries_iff _ _ _).mp (show (p.1, p.2) ∈ a.storage.entries from hp.mem_iff.mp hpm)
      show (p.2.offset, p.2) = p
      rw [hs _ _ hm]
    rw [e]
    exact get_mapOf_perm _ _ hp k
  · show (a.transfers.map SerTransfer.new).map SerTransfer.convert = _
    rw [List.map_map]
    exact List.map_id' _

/-- **C37.** Converting an output to its serializable form and back gives the same output, whatever the order in which maps are
iterated, if accounts and storage updates are stored under their own addresses and keys. -/
theorem c37_output (ord : Orders) (hf : Fair ord) (o : RawOutput) (hk : KeysAgree o) :
    SameOutput (SerOutput.new ord (some o)).convert o := by
  refine ⟨rfl, rfl, rfl, rfl, rfl, ?_, rfl, rfl, rfl⟩
  intro k
  have hp := hf.accounts o.accounts
  have e : (SerOutput.new ord (some o)).convert.accounts =
      mapOf ((ord.accounts o.accounts).map fun p => (p.1, (SerAcc.new ord p.2).convert)) := by
    show mapOf (((ord.accounts o.accounts).map fun p => SerAcc.new ord p.2).map fun a => (a.address, a.convert)) = _
    rw [List.map_map]
    congr 1
    apply List.map_congr_left
    intro p hpm
    have hm := (AMap.mem_entries_iff _ _ _).mp (show (p.1, p.2) ∈ o.accounts.entries from hp.mem_iff.mp hpm)
    show (p.2.address, _) = _
    rw [(hk _ _ hm).1]
  have hn : ((ord.accounts o.accounts).map Prod.fst).Nodup := (hp.map _).nodup_iff.mpr o.accounts.nodup
  rw [e, get_mapOf _ (by rw [List.map_map]; exact hn) k, AMap.lookupL_map (fun a => (SerAcc.new ord a).convert), lookupL_perm hp hn k]
  show match Option.map _ (o.accounts.get? k), o.accounts.get? k with
    | some x, some y => SameRawAcc x y
    | none, none => True
    | _, _ => False
  cases h : o.accounts.get? k with
  | none => trivial
  | some acc => exact serAcc_convert ord hf acc (hk _ _ h).2

/-- outputs of the host are stored under their own keys -/
theorem rawOutput_keysAgree (o : VMOutput) : KeysAgree (rawOutput o) := by
  intro k acc h
  have hn : ((o.accounts.entries.map fun p => (p.1, rawAcc p.1 p.2)).map Prod.fst).Nodup := by
    rw [List.map_map]
    exact o.accounts.nodup
  rw [rawOutput, get_mapOf _ hn] at h
  obtain ⟨p, hp, e⟩ := List.mem_map.mp (AMap.lookupL_some_mem h)
  cases e
  refine ⟨rfl, ?_⟩
  intro q u hu
  have hn' : ((p.2.storage.entries.map fun p => (p.1, (⟨p.1, p.2⟩ : StorageUpdate))).map Prod.fst).Nodup := by
    rw [List.map_map]
    exact p.2.storage.nodup
  rw [rawAcc, get_mapOf _ hn'] at hu
  obtain ⟨p', _, e'⟩ := List.mem_map.mp (AMap.lookupL_some_mem hu)
  cases e'
  rfl

/-- **C37.** Every output of the host reaches the node as it was. -/
theorem c37_host (ord : Orders) (hf : Fair ord) (o : VMOutput) :
    SameOutput (SerOutput.new ord (some (rawOutput o))).convert (rawOutput o) :=
  c37_output ord hf _ (rawOutput_keysAgree o)

/-- **C37.** A map of strings to bytes reaches the other process as it was. -/
theorem c37_map (ord : Orders) (hf : Fair ord) (m : AMap Bytes Bytes) :
    ∃ m', (SerMap.new ord m).convert = some m' ∧ ∀ k, m'.get? k = m.get? k := by
  have e : (SerMap.new ord m).keys.zip (SerMap.new ord m).values = ord.pairs m := (List.zip_of_prod rfl rfl).symm
  refine ⟨mapOf (ord.pairs m), ?_, fun k => get_mapOf_perm m _ (hf.pairs m) k⟩
  rw [SerMap.convert, if_neg (by simp [SerMap.new]), e]

/-- no output at all, which the host hands out together with an error, becomes the empty output with the code for success -/
theorem c37_nil (ord : Orders) : (SerOutput.new ord none).convert = {} := rfl

/-- iteration in the order of the entries -/
def inOrder : Orders := { accounts := fun m => m.entries, storage := fun m => m.entries, pairs := fun m => m.entries }

theorem inOrder_fair : Fair inOrder := ⟨fun _ => .refl _, fun _ => .refl _, fun _ => .refl _⟩

/-- iteration in the opposite order -/
def reversed : Orders :=
  { accounts := fun m => m.entries.reverse, storage := fun m => m.entries.reverse, pairs := fun m => m.entries.reverse }

theorem reversed_fair : Fair reversed :=
  ⟨fun _ => List.reverse_perm _, fun _ => List.reverse_perm _, fun _ => List.reverse_perm _⟩

/-- an output with two accounts that both say they have address `[1]` -/
def twins : RawOutput :=
  { accounts := mapOf [([1], { address := [1], nonce := 5 }), ([2], { address := [1], nonce := 7 })] }

/-- Agreement of keys and addresses is needed: of two accounts with one address only one arrives, and which one depends on the
order of iteration. -/
theorem c37_neg : (SerOutput.new inOrder (some twins)).convert.accounts.get? [2] = none ∧
    ((SerOutput.new inOrder (some twins)).convert.accounts.get? [1]).map (·.nonce) = some 7 ∧
    ((SerOutput.new reversed (some twins)).convert.accounts.get? [1]).map (·.nonce) = some 5 := by
  decide +kernel

/-- an output with two accounts, storage, transfers and logs -/
def richOutput : VMOutput :=
  { returnData := [[1], [2, 3]], gasRemaining := 77, gasRefund := 3,
    accounts := mapOf [([1], { nonce := 4, storage := mapOf [([7], [8]), ([9], [])], transfers := [{ value := 3, gasLimit := 9, sender := [4] }] }),
      ([2], { balance := some 9, balanceDelta := -3, code := [1, 2], deployer := some [8] })],
    logs := [⟨[1], [2], [[3]], [4]⟩] }

example : SameOutput (SerOutput.new reversed (some (rawOutput richOutput))).convert (rawOutput richOutput) ∧
    (SerOutput.new reversed (some (rawOutput richOutput))).accounts.length = 2 :=
  ⟨c37_host reversed reversed_fair richOutput, by decide +kernel⟩

end Arwen.Props
