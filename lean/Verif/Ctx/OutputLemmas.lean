import Verif.Ctx.Output
/-
Facts about merging outputs: merging into an empty output is a copy.
-/
namespace Arwen

namespace AMap
variable {K V W : Type} [DecidableEq K]

theorem insertL_new (k : K) (v : V) (l : List (K × V)) (h : k ∉ l.map Prod.fst) : insertL k v l = l ++ [(k, v)] := by
  induction l with
  | nil => rfl
  | cons p l ih =>
    obtain ⟨a, b⟩ := p
    simp only [List.map_cons, List.mem_cons, not_or] at h
    simp only [insertL]
    rw [if_neg (fun he => h.1 he.symm), ih h.2]
    rfl

theorem mergeWith_foldl_new (g : Option V → W → V) (es : List (K × W)) : ∀ (l : AMap K V), (es.map Prod.fst).Nodup →
    (∀ k ∈ es.map Prod.fst, k ∉ l.entries.map Prod.fst) →
    (es.foldl (fun acc p => acc.insert p.1 (g (acc.get? p.1) p.2)) l).entries = l.entries ++ es.map (fun p => (p.1, g none p.2)) := by
  induction es with
  | nil => intro l _ _; simp
  | cons p es ih =>
    intro l hn hd
    obtain ⟨a, b⟩ := p
    simp only [List.map_cons, List.nodup_cons] at hn
    have ha : a ∉ l.entries.map Prod.fst := hd a (by simp)
    have hg : l.get? a = none := lookupL_none_iff.2 ha
    simp only [List.foldl_cons, hg]
    have he : (l.insert a (g none b)).entries = l.entries ++ [(a, g none b)] := insertL_new _ _ _ ha
    rw [ih _ hn.2, he]
    · simp
    · intro k hk
      rw [he]
      simp only [List.map_append, List.map_cons, List.map_nil, List.mem_append, List.mem_singleton, not_or]
      refine ⟨hd k (by simp [hk]), ?_⟩
      rintro rfl
      exact hn.1 hk

/-- merging into the empty map -/
theorem mergeWith_empty (g : Option V → W → V) (r : AMap K W) : mergeWith g empty r = r.mapVal (g none) := by
  apply ext'
  rw [mergeWith, mergeWith_foldl_new g r.entries empty r.nodup (by simp [empty])]
  rfl

omit [DecidableEq K] in
theorem mapVal_id (f : V → V) (hf : ∀ v, f v = v) (m : AMap K V) : m.mapVal f = m := by
  apply ext'
  simp only [mapVal, hf]
  exact List.map_id' _
end AMap

theorem mergeAcc_empty (r : OutAcc) : mergeAcc {} r = r := by
  have hs : AMap.mergeWith (fun _ x => x) (AMap.empty : AMap Bytes Bytes) r.storage = r.storage := by
    rw [AMap.mergeWith_empty]; exact AMap.mapVal_id _ (fun _ => rfl) _
  obtain ⟨nonce, balance, delta, sto, code, md, dep, tr, gas⟩ := r
  simp only [mergeAcc] at hs ⊢
  congr 1
  · split
    · rfl
    · rename_i h
      exact (UInt64.toNat_inj.1 (by simp only [GT.gt, UInt64.lt_iff_toNat_lt] at h; simp at h; simp [h])).symm
  · cases balance <;> rfl
  · split
    · rfl
    · rename_i h; simp only [GT.gt, Nat.not_lt, Nat.le_zero, List.length_eq_zero_iff] at h; exact h.symm
  · split
    · rfl
    · rename_i h; simp only [GT.gt, Nat.not_lt, Nat.le_zero, List.length_eq_zero_iff] at h; exact h.symm
  · cases dep <;> rfl
  · split
    · simp
    · rename_i h
      simp only [List.length_nil, GT.gt, Nat.not_lt, Nat.le_zero, List.length_eq_zero_iff] at h; exact h.symm

/-- `PushState` saves a copy of the active output. -/
theorem mergeOut_empty (r : VMOutput) : mergeOut {} r = r := by
  have ha : AMap.mergeWith (fun la ra => mergeAcc (Option.getD la {}) ra) (AMap.empty : AMap Addr OutAcc) r.accounts = r.accounts := by
    rw [AMap.mergeWith_empty]
    exact AMap.mapVal_id _ (fun v => by simp only [Option.getD_none]; exact mergeAcc_empty v) _
  obtain ⟨_, _, _, _, _, _, _⟩ := r
  simp only [mergeOut] at ha ⊢
  simp only [ha, List.nil_append]

theorem OutCtx.push_eq (c : OutCtx) : c.push = { c with stack := c.cur :: c.stack } := by
  simp only [OutCtx.push, mergeOut_empty]

end Arwen
