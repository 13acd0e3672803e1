import Verif.World.Dump
import Verif.Spec.Dump
import Verif.Props.Check
import Verif.Props.ExprBytes
import Verif.Props.RewriteAccounts
import Verif.Props.OldTest
/-!
The trees of which a dump of the world is made.
-/
namespace Arwen.Props
open Arwen.Mandos Arwen.Mock Arwen.Spec

variable {q : Bytes → Bytes} {C : TokenCodec}

/-! ### Texts -/

theorem unknownPretty_shows (v : Bytes) : ShowsBytes v (unknownPretty q v) := by
  unfold unknownPretty
  split
  · rename_i h; exact .inl ⟨h, rfl⟩
  · rename_i h
    refine .inr ⟨h, ?_⟩
    split
    · exact ⟨strPrefix ++ v, by simp only [List.append_assoc]⟩
    · split
      · exact ⟨_, rfl⟩
      · exact ⟨strPrefix ++ q v, by simp only [List.append_assoc]⟩

theorem showsBytes_nil {v t : Bytes} (h : ShowsBytes v t) : t = [] ↔ v = [] := by
  rcases h with ⟨h1, h2⟩ | ⟨h1, note, rfl⟩
  · simp [h1, h2]
  · simp [h1, ascii]

theorem sep_inj {c : UInt8} {a b r s : Bytes} (ha : c ∉ a) (hb : c ∉ b) (h : a ++ c :: r = b ++ c :: s) : a = b := by
  induction a generalizing b with
  | nil =>
    cases b with
    | nil => rfl
    | cons x b => simp at h; exact absurd h.1 (by rintro rfl; simp at hb)
  | cons x a ih =>
    cases b with
    | nil => simp at h; exact absurd h.1 (by rintro rfl; simp at ha)
    | cons y b =>
      simp only [List.cons_append, List.cons.injEq] at h
      simp only [List.mem_cons, not_or] at ha hb
      rw [h.1, ih ha.2 hb.2 h.2]

theorem hexEncode_noSpace (v : Bytes) : (32 : UInt8) ∉ hexEncode v := by
  intro h
  have hd : HexDigits (hexEncode v) (bytesToNat v) := by
    have := scanHex_hexDecode _ _ 0 (hexDecode_encode v)
    rw [Nat.zero_mul, Nat.zero_add] at this
    exact scanHex_iff.1 this.1
  obtain ⟨d, hd⟩ := hexDigits_mem hd 32 h
  unfold IsHexDigit at hd
  rw [show UInt8.toNat 32 = 32 from rfl] at hd
  omega

theorem showsBytes_inj {v v' t : Bytes} (h : ShowsBytes v t) (h' : ShowsBytes v' t) : v = v' := by
  by_cases ht : t = []
  · rw [(showsBytes_nil h).1 ht, (showsBytes_nil h').1 ht]
  · rcases h with ⟨_, e⟩ | ⟨_, n, e⟩
    · exact absurd e ht
    · rcases h' with ⟨_, e'⟩ | ⟨_, n', e'⟩
      · exact absurd e' ht
      · rw [e] at e'
        have : hexEncode v = hexEncode v' := by
          refine sep_inj (c := 32) (r := 40 :: (n ++ ascii [')'])) (s := 40 :: (n' ++ ascii [')'])) (hexEncode_noSpace v)
            (hexEncode_noSpace v') ?_
          simpa [ascii] using e'
        have := congrArg hexDecode this
        rw [hexDecode_encode, hexDecode_encode] at this
        exact Option.some.inj this

theorem decimal_ne (n : Nat) : decimal n ≠ [] := by
  rw [decimal]
  split <;> simp

theorem shownNat (n : Nat) : ShowsNat n (reconstruct q (natToBytes n) .number) := by
  rw [reconstruct, bytesToNat_natToBytes]
  exact decimal_digits n

theorem shownNat_ne (n : Nat) : reconstruct q (natToBytes n) .number ≠ [] := decimal_ne _

theorem address_text (a : Bytes) : reconstruct q a .address = [] ↔ a = [] := by
  show addressPretty q a = [] ↔ _
  unfold addressPretty
  split
  · exact showsBytes_nil (unknownPretty_shows a)
  · rename_i h
    have ha : a ≠ [] := by rintro rfl; simp at h
    simp only [ha, iff_false]
    split
    · split <;> simp [scPrefix, ascii]
    · split <;> simp [addrPrefix, ascii]

theorem address_shows (a : Bytes) : ShowsAddress a (reconstruct q a .address) := by
  refine ⟨fun I h => c40_back_address_partial I q h.1 h.2.1 h.2.2, fun h => ?_⟩
  show ShowsBytes a (addressPretty q a)
  rw [addressPretty, if_pos h]
  exact unknownPretty_shows a

theorem shownBytes_text {v : Bytes} {hint : Hint} (h : reconstruct q v hint = [] → v = []) :
    (shownBytes q v hint).text = reconstruct q v hint := by
  unfold BytesS.text shownBytes
  dsimp only
  rw [if_neg (fun e => e.2 (h e.1))]

/-! ### Maps -/

/-- a map under construction -/
def Words (l : Pairs) (ks : List Word) : Prop := ∀ p ∈ l, ∃ w ∈ ks, p.1 = w.text

theorem putIf_words {l : Pairs} {ks : List Word} (hl : Words l ks) {c : Bool} {w : Word} {v : Option Json} (hw : w ∉ ks) {j : Json}
    (hv : c = true → v = some j) :
    putIf c w v (some l) = some (l ++ if c = true then [(w.text, j)] else []) ∧
    Words (l ++ if c = true then [(w.text, j)] else []) (w :: ks) := by
  cases c with
  | false => exact ⟨by simp [putIf], by simpa [Words] using fun a b h => .inr (hl (a, b) h)⟩
  | true =>
    have hf : w.text ∉ l.map Prod.fst := by
      intro h
      obtain ⟨p, hp, e⟩ := List.mem_map.1 h
      obtain ⟨w', hw', e'⟩ := hl p hp
      rw [e'] at e
      exact hw (Word.text_inj e ▸ hw')
    refine ⟨by simp [putIf, put, putAt, hv rfl, putKey_fresh hf], fun p hp => ?_⟩
    rcases List.mem_append.1 hp with hp | hp
    · obtain ⟨w', hw', e⟩ := hl p hp
      exact ⟨w', .tail _ hw', e⟩
    · simp only [if_true, List.mem_singleton] at hp
      exact ⟨w, .head _, by rw [hp]⟩

theorem field_shows {w : Word} {c : Bool} {present : Prop} {P : Bytes → Prop} {t : Bytes} (hc : c = true ↔ present)
    (ht : present → P t) : ShowsField w present P (if c = true then [(w.text, .str t)] else []) := by
  refine ⟨fun h => ⟨t, ht h, by rw [if_pos (hc.2 h)]⟩, fun h => by rw [if_neg (fun e => h (hc.1 e))]⟩

theorem writeAll_zip {α β : Type} {f : α → Option Json} {g : β → Json} {P : α → β → Prop} :
    ∀ {l : List α}, (∀ x ∈ l, ∃ y, f x = some (g y) ∧ P x y) →
      ∃ ys, writeAll f l = some (ys.map g) ∧ l.length = ys.length ∧ ∀ x y, (x, y) ∈ l.zip ys → P x y
  | [], _ => ⟨[], rfl, rfl, fun _ _ h => by cases h⟩
  | x :: l, h => by
    obtain ⟨y, h1, h2⟩ := h x (.head _)
    obtain ⟨ys, h3, h4, h5⟩ := writeAll_zip (l := l) (fun x hx => h x (.tail _ hx))
    refine ⟨y :: ys, by simp [writeAll, h1, h3], by simp [h4], fun a b hab => ?_⟩
    rw [List.zip_cons_cons] at hab
    rcases List.mem_cons.1 hab with e | hab
    · cases e; exact h2
    · exact h5 a b hab

theorem putAll_zip {α : Type} {f : α → Option Json} {key : α → Bytes} {P : α → Json → Prop} :
    ∀ {l : List α} {m : Pairs}, (∀ x ∈ l, ∃ j, f x = some j ∧ P x j) → (l.map key).Nodup → (∀ x ∈ l, key x ∉ m.map Prod.fst) →
      ∃ ps, l.foldl (fun m x => putAt (key x) (f x) m) (some m) = some (m ++ ps) ∧ l.length = ps.length ∧
        ∀ x p, (x, p) ∈ l.zip ps → p.1 = key x ∧ P x p.2
  | [], m, _, _, _ => ⟨[], by simp, rfl, fun _ _ h => by cases h⟩
  | x :: l, m, h, hn, hf => by
    obtain ⟨j, h1, h2⟩ := h x (.head _)
    rw [List.map_cons, List.nodup_cons] at hn
    obtain ⟨ps, h3, h4, h5⟩ := putAll_zip (l := l) (m := m ++ [(key x, j)]) (fun x hx => h x (.tail _ hx)) hn.2 (by
      intro y hy
      simp only [List.map_append, List.mem_append, List.map_cons, List.map_nil, List.mem_singleton, not_or]
      exact ⟨hf y (.tail _ hy), fun e => hn.1 (List.mem_map.2 ⟨y, hy, e⟩)⟩)
    refine ⟨(key x, j) :: ps, ?_, by simp [h4], fun a b hab => ?_⟩
    · rw [List.foldl_cons, h1]
      simp only [putAt, Option.bind_some, Option.map_some, putKey_fresh (hf x (.head _))]
      rw [List.append_assoc] at h3
      exact h3
    · rw [List.zip_cons_cons] at hab
      rcases List.mem_cons.1 hab with e | hab
      · cases e; exact ⟨rfl, h2⟩
      · exact h5 a b hab

/-- whether or not keys come twice: nothing but what was put in, and something under every key -/
theorem putAll_some {α : Type} {f : α → Option Json} {key : α → Bytes} {P : α → Json → Prop} (l : List α) :
    ∀ (s : List α) (m : Pairs), (∀ x ∈ l, ∃ j, f x = some j ∧ P x j) → (m.map Prod.fst).Nodup →
      (∀ p ∈ m, ∃ x ∈ s, p.1 = key x ∧ P x p.2) →
      ∃ ps, l.foldl (fun m x => putAt (key x) (f x) m) (some m) = some ps ∧ (ps.map Prod.fst).Nodup ∧
        (∀ p ∈ ps, ∃ x ∈ s ++ l, p.1 = key x ∧ P x p.2) ∧ (∀ k ∈ m.map Prod.fst, k ∈ ps.map Prod.fst) ∧
        ∀ x ∈ l, key x ∈ ps.map Prod.fst := by
  induction l with
  | nil => exact fun s m _ hn hm => ⟨m, rfl, hn, by simpa using hm, fun k hk => hk, fun x hx => by cases hx⟩
  | cons x l ih =>
    intro s m h hn hm
    obtain ⟨j, h1, h2⟩ := h x (.head _)
    have hk : (putKey m (key x) j).map Prod.fst = m.map Prod.fst ∧ key x ∈ m.map Prod.fst ∧ putKey m (key x) j = m ∨
        key x ∉ m.map Prod.fst ∧ putKey m (key x) j = m ++ [(key x, j)] := by
      by_cases hx : key x ∈ m.map Prod.fst
      · left
        have : putKey m (key x) j = m := by
          unfold putKey
          rw [if_pos]
          obtain ⟨p, hp, e⟩ := List.mem_map.1 hx
          exact List.any_eq_true.2 ⟨p, hp, by simp [e]⟩
        exact ⟨by rw [this], hx, this⟩
      · exact .inr ⟨hx, putKey_fresh hx⟩
    have hm' : (∀ p ∈ putKey m (key x) j, ∃ y ∈ s ++ [x], p.1 = key y ∧ P y p.2) := by
      intro p hp
      rcases hk with ⟨_, _, e⟩ | ⟨_, e⟩
      · rw [e] at hp
        obtain ⟨y, hy, h3⟩ := hm p hp
        exact ⟨y, List.mem_append_left _ hy, h3⟩
      · rw [e] at hp
        rcases List.mem_append.1 hp with hp | hp
        · obtain ⟨y, hy, h3⟩ := hm p hp
          exact ⟨y, List.mem_append_left _ hy, h3⟩
        · rw [List.mem_singleton.1 hp]
          exact ⟨x, by simp, rfl, h2⟩
    have hn' : ((putKey m (key x) j).map Prod.fst).Nodup := by
      rcases hk with ⟨e, _⟩ | ⟨hx, e⟩
      · rw [e]; exact hn
      · rw [e, List.map_append, List.nodup_append]
        refine ⟨hn, by simp, ?_⟩
        rintro a ha b hb rfl
        simp only [List.map_cons, List.map_nil, List.mem_singleton] at hb
        exact hx (hb ▸ ha)
    have hin : (∀ k ∈ m.map Prod.fst, k ∈ (putKey m (key x) j).map Prod.fst) ∧ key x ∈ (putKey m (key x) j).map Prod.fst := by
      rcases hk with ⟨e, hx, _⟩ | ⟨hx, e⟩
      · rw [e]; exact ⟨fun k hk => hk, hx⟩
      · rw [e]; simp
        intro k y hy; exact .inl ⟨y, hy⟩
    obtain ⟨ps, h3, h4, h5, h6, h7⟩ := ih (s ++ [x]) (putKey m (key x) j) (fun y hy => h y (.tail _ hy)) hn' hm'
    refine ⟨ps, ?_, h4, ?_, fun k hk => h6 k (hin.1 k hk), ?_⟩
    · rw [List.foldl_cons, h1]; exact h3
    · simpa [List.append_assoc] using h5
    · intro y hy
      rcases List.mem_cons.1 hy with rfl | hy
      · exact h6 _ hin.2
      · exact h7 y hy

/-! ### Order -/

theorem before_of_le : ∀ a b : Bytes, bytesLe a b = true → a ≠ b → Before a b
  | [], [], _, h => absurd rfl h
  | [], y :: t, _, _ => .inl ⟨y, t, rfl⟩
  | _ :: _, [], h, _ => by simp [bytesLe] at h
  | x :: s, y :: t, h, hne => by
    by_cases hxy : x = y
    · subst hxy
      have h' : bytesLe s t = true := by
        rw [← bytesLe_append [x] s t]; exact h
      rcases before_of_le s t h' (fun e => hne (by rw [e])) with ⟨z, u, e⟩ | ⟨p, c, d, u, v, e1, e2, hlt⟩
      · exact .inl ⟨z, u, by rw [e]; rfl⟩
      · exact .inr ⟨x :: p, c, d, u, v, by rw [e1]; rfl, by rw [e2]; rfl, hlt⟩
    · refine .inr ⟨[], x, y, s, t, rfl, rfl, ?_⟩
      simp only [bytesLe] at h
      have hne' : x.toNat ≠ y.toNat := fun e => hxy (UInt8.toNat_inj.1 e)
      grind

theorem sortByKey_before {α : Type} {l : List (Bytes × α)} (h : (l.map Prod.fst).Nodup) :
    (sortByKey l).Pairwise (fun a b => Before a.1 b.1) := by
  have hn : ((sortByKey l).map Prod.fst).Nodup := ((sortByKey_perm l).map _).nodup_iff.2 h
  rw [List.Nodup, List.pairwise_map] at hn
  exact ((sortByKey_sorted l).and hn).imp (fun ⟨h1, h2⟩ => before_of_le _ _ h1 h2)

/-! ### Storage -/

theorem storage_shows (st : Store) :
    ∃ ps, (shownStorage q st).foldl (fun m e => putAt e.1.text e.2.json m) (some []) = some ps ∧ ShowsStorage st ps := by
  have hn : (st.entries.map Prod.fst).Nodup := st.nodup
  generalize hes : (sortByKey st.entries).filter (fun p => !elrondPrefix.isPrefixOf p.1 && decide (p.2.length > 0)) = es
  have hmem : ∀ k v, (k, v) ∈ es ↔ st.get? k = some v ∧ v ≠ [] ∧ ¬ elrondPrefix <+: k := by
    intro k v
    rw [← hes, List.mem_filter, (sortByKey_perm _).mem_iff, AMap.mem_entries_iff]
    simp only [Bool.and_eq_true, Bool.not_eq_true', decide_eq_true_eq]
    rw [← Bool.not_eq_true, List.isPrefixOf_iff_prefix, gt_iff_lt, List.length_pos_iff]
    exact and_congr_right (fun _ => And.comm)
  have hord : es.Pairwise (fun a b => Before a.1 b.1) := by
    rw [← hes]; exact (sortByKey_before hn).filter _
  have hkeys : (es.map (fun e => reconstruct q e.1 .none)).Nodup := by
    rw [List.Nodup, List.pairwise_map]
    have hne : es.Pairwise (fun a b => a.1 ≠ b.1) := by
      have : ((sortByKey st.entries).map Prod.fst).Nodup := ((sortByKey_perm _).map _).nodup_iff.2 hn
      rw [List.Nodup, List.pairwise_map] at this
      rw [← hes]; exact this.filter _
    refine hne.imp (fun hab e => hab ?_)
    exact showsBytes_inj (unknownPretty_shows (q := q) _) (by rw [show unknownPretty q _ = _ from e]; exact unknownPretty_shows _)
  obtain ⟨ps, h1, h2, h3⟩ := putAll_zip (l := es) (m := []) (key := fun e => reconstruct q e.1 .none)
    (f := fun e => (shownTree q e.2).json) (P := fun e j => j = .str (reconstruct q e.2 .none)) (by
      rintro ⟨k, v⟩ he
      refine ⟨_, ?_, rfl⟩
      have hv := ((hmem k v).1 he).2.1
      unfold BytesT.json shownTree originalEmpty
      have : reconstruct q v .none ≠ [] := fun e => hv ((showsBytes_nil (unknownPretty_shows v)).1 e)
      simp [this]) hkeys (by simp)
  refine ⟨ps, ?_, es, hord, hmem, h2, fun e p hp => ?_⟩
  · rw [shownStorage, hes, List.foldl_map]
    rw [List.nil_append] at h1
    rw [← h1]
    congr 1
    funext m e
    rw [shownBytes_text (q := q) (v := e.1) (hint := .none) (fun h => (showsBytes_nil (unknownPretty_shows (q := q) e.1)).1 h)]
  · obtain ⟨h4, h5⟩ := h3 e p hp
    exact ⟨by rw [h4]; exact unknownPretty_shows _, _, h5, unknownPretty_shows _⟩

/-! ### Tokens -/

theorem instance_shows {t : TokenRec} (hv : 0 ≤ t.value) :
    ∃ ps, (shownInstance q t).append (some []) = some ps ∧ ShowsInstance t.nonce t.value (t.metadata.getD {}) ps := by
  have hn : t.nonce = (t.metadata.getD {}).nonce := by unfold TokenRec.nonce; cases t.metadata <;> rfl
  rw [hn]
  unfold JInstance.append
  have any : ∀ (v : Bytes) (hint : Hint), (reconstruct q v hint = [] ↔ v = []) →
      (decide ((shownIfAny q v hint).original ≠ []) = true ↔ v ≠ []) ∧
      (decide ((shownIfAny q v hint).original ≠ []) = true → (shownIfAny q v hint).json = some (.str (reconstruct q v hint))) := by
    intro v hint h
    have e : v ≠ [] → shownIfAny q v hint = shownBytes q v hint := fun hv => if_pos (List.length_pos_iff.2 hv)
    have hiff : decide ((shownIfAny q v hint).original ≠ []) = true ↔ v ≠ [] := by
      rw [decide_eq_true_eq]
      by_cases hv : v = []
      · simp [hv, shownIfAny]
      · rw [e hv]
        exact ⟨fun _ => hv, fun _ h' => hv (h.1 h')⟩
    refine ⟨hiff, fun hc => ?_⟩
    rw [e (hiff.1 hc), BytesS.json, shownBytes_text h.1, strJ]
  have hu : ∀ v, unknownPretty q v = [] ↔ v = [] := fun v => showsBytes_nil (unknownPretty_shows v)
  have f1 : (shownInstance q t).nonce = shownU64 q (t.metadata.getD {}).nonce := rfl
  have f2 : (shownInstance q t).balance = shownInt q t.value := rfl
  have f3 : (shownInstance q t).creator = shownIfAny q (t.metadata.getD {}).creator .address := rfl
  have hr : (shownInstance q t).royalties =
    if (t.metadata.getD {}).royalties > 0 then shownU64 q (t.metadata.getD {}).royalties.toUInt64 else {} := rfl
  have f5 : (shownInstance q t).hash = shownIfAny q (t.metadata.getD {}).hash .none := rfl
  have hui : (shownInstance q t).uri = match (t.metadata.getD {}).uris with | [] => ({} : BytesT) | u :: _ => shownTree q u := rfl
  have f7 : (shownInstance q t).attributes = shownIfAny q (t.metadata.getD {}).attributes .none := rfl
  generalize shownInstance q t = x at f1 f2 f3 hr f5 hui f7 ⊢
  generalize t.metadata.getD {} = m at f1 f2 f3 hr f5 hui f7 ⊢
  obtain ⟨c1, c2⟩ := any m.creator .address (address_text _)
  obtain ⟨h1, h2⟩ := any m.hash .none (hu _)
  obtain ⟨a1, a2⟩ := any m.attributes .none (hu _)
  rw [← f3] at c1 c2
  rw [← f5] at h1 h2
  rw [← f7] at a1 a2
  obtain ⟨e1, w1⟩ := putIf_words (l := []) (ks := []) (by intro p hp; cases hp) (c := decide (x.nonce.original ≠ []))
    (w := .nonce) (v := x.nonce.json) (by simp) (fun _ => rfl)
  rw [e1]
  obtain ⟨e2, w2⟩ := putIf_words w1 (c := decide (x.balance.original ≠ [])) (w := .balance) (v := x.balance.json)
    (by decide) (fun _ => rfl)
  rw [e2]
  obtain ⟨e3, w3⟩ := putIf_words w2 (w := .creator) (by decide) c2
  rw [e3]
  obtain ⟨e4, w4⟩ := putIf_words w3 (c := decide (x.royalties.original ≠ [])) (w := .royalties) (v := x.royalties.json) (by decide) (fun _ => rfl)
  rw [e4]
  obtain ⟨e5, w5⟩ := putIf_words w4 (w := .hash) (by decide) h2
  rw [e5]
  have huv : x.uri.value = m.uris.headD [] ∧ (x.uri.value ≠ [] → x.uri.json = some (.str (unknownPretty q x.uri.value))) := by
    rw [hui]
    cases m.uris with
    | nil => exact ⟨rfl, fun h => absurd rfl h⟩
    | cons x l =>
      refine ⟨rfl, fun hx => ?_⟩
      have hx' : x ≠ [] := hx
      unfold BytesT.json shownTree originalEmpty
      have : reconstruct q x .none ≠ [] := fun e => hx' ((hu x).1 e)
      simp only [this, decide_false]
      rfl
  obtain ⟨e6, w6⟩ := putIf_words w5 (c := decide (x.uri.value ≠ [])) (w := .uri) (v := x.uri.json) (by decide)
    (fun h => huv.2 (by simpa using h))
  rw [e6]
  obtain ⟨e7, w7⟩ := putIf_words w6 (w := .attributes) (by decide) a2
  rw [e7]
  refine ⟨_, rfl, _, _, _, _, _, _, _, rfl, ?_, ?_, ?_, ?_, ?_, ?_, ?_⟩
  · rw [f1]
    refine field_shows ?_ (fun _ => shownNat (q := q) _)
    simp only [decide_eq_true_eq, iff_true]
    exact shownNat_ne (q := q) _
  · rw [f2]
    refine field_shows ?_ (fun _ => ?_)
    · simp only [decide_eq_true_eq, iff_true]
      exact shownNat_ne (q := q) _
    · have : t.value.natAbs = t.value.toNat := by omega
      rw [← this]
      exact shownNat (q := q) _
  · exact field_shows c1 (fun _ => ⟨(address_shows _).2, (address_shows _).1⟩)
  · refine field_shows ?_ (fun h => ?_)
    · rw [decide_eq_true_eq, hr]
      by_cases h0 : m.royalties = 0
      · simp [h0]
      · rw [if_pos (by exact UInt32.pos_iff_ne_zero.2 h0)]
        simp only [ne_eq, h0, not_false_eq_true, iff_true]
        exact shownNat_ne (q := q) _
    · rw [hr, if_pos (by exact UInt32.pos_iff_ne_zero.2 h)]
      have := shownNat (q := q) m.royalties.toUInt64.toNat
      rwa [show m.royalties.toUInt64.toNat = m.royalties.toNat from rfl] at this
  · exact field_shows h1 (fun _ => unknownPretty_shows _)
  · rw [← huv.1]
    exact field_shows (by simp) (fun _ => unknownPretty_shows _)
  · exact field_shows a1 (fun _ => unknownPretty_shows _)

end Arwen.Props
