import Verif.Spec.Files
import Verif.Props.ReadingFile
/-!
For C74: the conversions of what was read keep every value.
-/
namespace Arwen.Props
open Arwen.Spec Arwen.Mandos Arwen.Mock

theorem eachOf_iff {α β : Type} {f : α → Option β} {R : α → β → Prop} (h : ∀ a b, f a = some b ↔ R a b) :
    ∀ (l : List α) (r : List β), eachOf f l = some r ↔ Each R l r
  | [], r => by
    simp only [eachOf, Option.some.injEq]
    constructor
    · rintro rfl; exact .nil
    · rintro ⟨⟩; rfl
  | a :: l, r => by
    simp only [eachOf]
    constructor
    · intro e
      rcases Option.bind_eq_some_iff.mp e with ⟨b, hb, e⟩
      rcases Option.bind_eq_some_iff.mp e with ⟨r', hr, e⟩
      cases e
      exact .cons ((h a b).mp hb) ((eachOf_iff h l r').mp hr)
    · rintro (_ | ⟨hab, ht⟩)
      rw [(h _ _).mpr hab, (eachOf_iff h _ _).mpr ht]
      rfl

theorem map_each {α β : Type} {f : α → β} {R : α → β → Prop} (h : ∀ a b, f a = b ↔ R a b) : ∀ (l : List α) (r : List β), l.map f = r ↔ Each R l r
  | [], r => by
    constructor
    · rintro rfl; exact .nil
    · rintro ⟨⟩; rfl
  | a :: l, r => by
    constructor
    · rintro rfl; exact .cons ((h a _).mp rfl) ((map_each h l _).mp rfl)
    · rintro (_ | ⟨hab, ht⟩)
      rw [List.map_cons, (h _ _).mpr hab, (map_each h _ _).mpr ht]

theorem map_both {α β : Type} {f : α → β} {R : α → β → Prop} (h : ∀ a b, f a = b ↔ R a b) : ∀ (l : Option α) (r : Option β), l.map f = r ↔ Both R l r
  | none, none => by simp [Both]
  | none, some b => by simp [Both]
  | some a, none => by simp [Both]
  | some a, some b => by simp [Both, h]

theorem instance_as (x : JInstance) (y : TokenInit) : toInstance x = some y ↔ TokenInitAs x y := by
  simp only [toInstance, Option.bind_eq_some_iff, Option.some.injEq]
  constructor
  · rintro ⟨b, hb, rfl⟩; constructor <;> first | rfl | exact hb
  · rintro ⟨h1, h2, h3, h4, h5, h6, h7⟩; cases y; simp_all

theorem tokenSet_as (x : JToken) (y : TokenSet) : toTokenSet x = some y ↔ TokenSetAs x y := by
  simp only [toTokenSet, Option.bind_eq_some_iff, Option.some.injEq, eachOf_iff instance_as]
  constructor
  · rintro ⟨b, hb, rfl⟩; constructor <;> first | rfl | exact hb
  · rintro ⟨h1, h2, h3, h4, h5⟩; cases y; simp_all

theorem entry_as (x : BytesS × BytesT) (y : Bytes × Bytes) : (x.1.value, x.2.value) = y ↔ EntryAs x y := by
  obtain ⟨a, b⟩ := y
  simp only [Prod.mk.injEq, EntryAs]
  exact ⟨fun ⟨h, k⟩ => ⟨h.symm, k.symm⟩, fun ⟨h, k⟩ => ⟨h.symm, k.symm⟩⟩

theorem account_as (x : JAccount) (y : AccountInit) : toAccount x = some y ↔ AccountInitAs x y := by
  simp only [toAccount, Option.bind_eq_some_iff, Option.some.injEq, eachOf_iff tokenSet_as]
  constructor
  · rintro ⟨b, hb, t, ht, rfl⟩
    constructor <;> first | rfl | exact hb | exact ht | exact (map_each entry_as _ _).mp rfl
  · rintro ⟨h1, h2, h3, h4, h5, h6, h7, h8, h9, h10⟩
    have := (map_each entry_as _ _).mpr h6
    cases y
    exact ⟨_, h4, _, h10, by simp_all⟩

theorem seed_as (x : Option BytesT) (y : Bytes) : (match x with
      | none => List.replicate 48 0
      | some s => s.value.take 48 ++ List.replicate (48 - s.value.length) 0) = y ↔ SeedAs x y := by
  have key : ∀ v y : Bytes, v.take 48 ++ List.replicate (48 - v.length) 0 = y ↔ y.length = 48 ∧ ∀ i, i < 48 → y[i]? = some (v[i]?.getD 0) := by
    intro v y
    have hl : (v.take 48 ++ List.replicate (48 - v.length) (0 : UInt8)).length = 48 := by
      rw [List.length_append, List.length_take, List.length_replicate]; omega
    have hi : ∀ i, i < 48 → (v.take 48 ++ List.replicate (48 - v.length) (0 : UInt8))[i]? = some (v[i]?.getD 0) := by
      intro i hi
      rw [List.getElem?_append]
      split
      · rename_i h
        rw [List.length_take] at h
        rw [List.getElem?_take_of_lt hi, List.getElem?_eq_getElem (by omega)]
        rfl
      · rename_i h
        rw [List.length_take] at h
        rw [List.getElem?_replicate, if_pos (by rw [List.length_take]; omega), List.getElem?_eq_none (l := v) (by omega)]
        rfl
    constructor
    · rintro rfl; exact ⟨hl, hi⟩
    · rintro ⟨h1, h2⟩
      apply List.ext_getElem?
      intro i
      by_cases h : i < 48
      · rw [hi i h, h2 i h]
      · rw [List.getElem?_eq_none (by omega), List.getElem?_eq_none (by omega)]
  cases x with
  | none => simpa [SeedAs] using key [] y
  | some s => simpa [SeedAs] using key s.value y

theorem block_as (x : JBlockInfo) (y : BlockInfo) : toBlock x = y ↔ BlockAs x y := by
  constructor
  · rintro rfl
    constructor <;> first | rfl | exact ⟨_, rfl, (seed_as _ _).mp rfl⟩
  · rintro ⟨h1, h2, h3, h4, b, h6, h5⟩
    have h5 := (seed_as _ _).mpr h5
    have h4 : x.epoch.value.toUInt32 = y.epoch := UInt32.toNat.inj (by rw [h4]; rfl)
    cases y
    simp only [toBlock, BlockInfo.mk.injEq]
    exact ⟨h1.symm, h2.symm, h3.symm, h4, (congrArg some h5).trans h6.symm⟩

theorem mock_as (x : JNewAddress) (y : AddressMock) : toMock x = y ↔ NewAddressAs x y := by
  constructor
  · rintro rfl; constructor <;> rfl
  · rintro ⟨h1, h2, h3⟩; cases y; simp_all [toMock]

theorem setState_as (x : JSetState) (y : SetState) : toSetState x = some y ↔ SetStateAs x y := by
  simp only [toSetState, Option.bind_eq_some_iff, Option.some.injEq, eachOf_iff account_as]
  have e : ∀ (a : BytesS) (b : Bytes), a.value = b ↔ b = a.value := fun a b => eq_comm
  constructor
  · rintro ⟨b, hb, rfl⟩
    exact ⟨hb, (map_both block_as _ _).mp rfl, (map_both block_as _ _).mp rfl, (map_each e _ _).mp rfl, (map_each mock_as _ _).mp rfl⟩
  · rintro ⟨h1, h2, h3, h4, h5⟩
    have h2 := (map_both block_as _ _).mpr h2
    have h3 := (map_both block_as _ _).mpr h3
    have h4 := (map_each e _ _).mpr h4
    have h5 := (map_each mock_as _ _).mpr h5
    cases y
    exact ⟨_, h1, by simp_all⟩

theorem chkBytes_as (x : ChkBytes) (y : CheckBytes) : toCheckBytes x = y ↔ ChkBytesAs x y := by
  constructor
  · rintro rfl; constructor <;> rfl
  · rintro ⟨h1, h2, h3⟩; cases y; simp_all [toCheckBytes]

theorem chkU64_as (x : ChkU64) (y : CheckU64) : toCheckU64 x = y ↔ ChkU64As x y := by
  constructor
  · rintro rfl; constructor <;> rfl
  · rintro ⟨h1, h2, h3⟩; cases y; simp_all [toCheckU64]

theorem chkInt_as (x : ChkInt) (y : CheckInt) : toCheckInt x = some y ↔ ChkIntAs x y := by
  obtain ⟨v, s, o, u⟩ := x
  obtain ⟨v', s', u'⟩ := y
  constructor
  · intro h
    cases v with
    | some v => cases h; exact ⟨.inl rfl, rfl, rfl⟩
    | none =>
      cases s with
      | true => cases h; exact ⟨.inr ⟨rfl, rfl, rfl⟩, rfl, rfl⟩
      | false => cases h
  · rintro ⟨h1, h2, h3⟩
    dsimp only at h1 h2 h3
    subst h2 h3
    rcases h1 with rfl | ⟨rfl, rfl, rfl⟩ <;> rfl

theorem chkInstance_as (x : JChkInstance) (y : CheckInstance) : toCheckInstance x = some y ↔ ChkInstanceAs x y := by
  simp only [toCheckInstance, Option.bind_eq_some_iff, Option.some.injEq, chkInt_as]
  constructor
  · rintro ⟨b, hb, rfl⟩
    constructor <;> first | exact hb | exact (chkBytes_as _ _).mp rfl | exact (chkU64_as _ _).mp rfl
  · rintro ⟨h1, h2, h3, h4, h5, h6, h7⟩
    simp only [← chkBytes_as, ← chkU64_as] at h1 h3 h4 h5 h6 h7
    cases y
    exact ⟨_, h2, by simp_all⟩

theorem chkToken_as (x : JChkToken) (y : CheckToken) : toCheckToken x = some y ↔ ChkTokenAs x y := by
  simp only [toCheckToken, Option.bind_eq_some_iff, Option.some.injEq, eachOf_iff chkInstance_as]
  constructor
  · rintro ⟨b, hb, rfl⟩
    constructor <;> first | rfl | exact hb | exact (chkU64_as _ _).mp rfl
  · rintro ⟨h1, h2, h3, h4, h5⟩
    simp only [← chkU64_as] at h3 h5
    cases y
    exact ⟨_, h2, by simp_all⟩

theorem chkEntry_as (x : BytesS × ChkBytes) (y : Bytes × CheckBytes) : (x.1.value, toCheckBytes x.2) = y ↔ ChkEntryAs x y := by
  obtain ⟨a, b⟩ := y
  simp only [Prod.mk.injEq, ChkEntryAs, chkBytes_as]
  exact ⟨fun ⟨h, k⟩ => ⟨h.symm, k⟩, fun ⟨h, k⟩ => ⟨h.symm, k⟩⟩

theorem chkAccount_as (x : JChkAccount) (y : CheckAccount) : toCheckAccount x = some y ↔ ChkAccountAs x y := by
  simp only [toCheckAccount, Option.bind_eq_some_iff, Option.some.injEq, eachOf_iff chkToken_as, chkInt_as]
  constructor
  · rintro ⟨b, hb, t, ht, rfl⟩
    constructor <;>
      first | rfl | exact hb | exact ht | exact (chkBytes_as _ _).mp rfl | exact (chkU64_as _ _).mp rfl | exact (map_each chkEntry_as _ _).mp rfl
  · rintro ⟨h1, h2, h3, h4, h5, h6, h7, h8, h9, h10, h11, h12, h13⟩
    have h5 := (map_each chkEntry_as _ _).mpr h5
    simp only [← chkBytes_as, ← chkU64_as] at h2 h4 h8 h9 h10
    cases y
    exact ⟨_, h3, _, h11, by simp_all⟩

theorem chkAccounts_as (x : JChkAccounts) (y : CheckAccounts) : toCheck x = some y ↔ ChkAccountsAs x y := by
  simp only [toCheck, Option.bind_eq_some_iff, Option.some.injEq, eachOf_iff chkAccount_as]
  constructor
  · rintro ⟨b, hb, rfl⟩; constructor <;> first | rfl | exact hb
  · rintro ⟨h1, h2⟩; cases y; simp_all

theorem kind_as (x : JKind) (y : TxKind) : toKind x = y ↔ KindAs x y := by
  constructor
  · rintro rfl; cases x <;> constructor
  · rintro (_ | _) <;> rfl

theorem gas_as (x : JGas) (y : GasKind) : toGas x = y ↔ GasAs x y := by
  constructor
  · rintro rfl; cases x <;> constructor
  · rintro (_ | _) <;> rfl

theorem sent_as (x : JTxToken) (y : EsdtTx) : toTransfer x = some y ↔ SentAs x y := by
  simp only [toTransfer, Option.bind_eq_some_iff, Option.some.injEq]
  constructor
  · rintro ⟨b, hb, rfl⟩; constructor <;> first | rfl | exact hb
  · rintro ⟨h1, h2, h3⟩; cases y; simp_all

theorem sent_both (x : Option JTxToken) (y : Option EsdtTx) : toTransfer? x = some y ↔ Both SentAs x y := by
  cases x with
  | none => cases y <;> simp [toTransfer?, Both]
  | some x => cases y <;> simp [toTransfer?, Both, Option.bind_eq_some_iff, sent_as]

theorem tx_as (x : JTx) (y : ScTx) : toTx x = some y ↔ TxAs x y := by
  simp only [toTx, Option.bind_eq_some_iff, Option.some.injEq, sent_both]
  have e : ∀ (a : BytesT) (b : Bytes), a.value = b ↔ b = a.value := fun a b => eq_comm
  constructor
  · rintro ⟨b, hb, t, ht, rfl⟩
    constructor <;> first | rfl | exact hb | exact ht | exact (kind_as _ _).mp rfl | exact (map_each e _ _).mp rfl
  · rintro ⟨h1, h2, h3, h4, h5, h6, h7, h8, h9, h10⟩
    have h1 := (kind_as _ _).mpr h1
    have h8 := (map_each e _ _).mpr h8
    cases y
    exact ⟨_, h2, _, h3, by simp_all⟩

theorem log_as (x : JLog) (y : CheckLog) : toCheckLog x = y ↔ ChkLogAs x y := by
  constructor
  · rintro rfl
    constructor <;> first | exact (chkBytes_as _ _).mp rfl | exact (map_each chkBytes_as _ _).mp rfl
  · rintro ⟨h1, h2, h3, h4⟩
    have h3 := (map_each chkBytes_as _ _).mpr h3
    simp only [← chkBytes_as] at h1 h2 h4
    cases y
    simp_all [toCheckLog]

theorem expect_as (x : JResult) (y : TxExpect) : toExpect x = some y ↔ ExpectAs x y := by
  simp only [toExpect, Option.bind_eq_some_iff, Option.some.injEq, chkInt_as]
  constructor
  · rintro ⟨b, hb, t, ht, rfl⟩
    constructor <;> first | rfl | exact hb | exact ht | exact (chkBytes_as _ _).mp rfl | exact (chkU64_as _ _).mp rfl |
      exact (map_each chkBytes_as _ _).mp rfl | exact (map_each log_as _ _).mp rfl
  · rintro ⟨h1, h2, h3, h4, h5, h6, h7⟩
    have h1 := (map_each chkBytes_as _ _).mpr h1
    have h7 := (map_each log_as _ _).mpr h7
    simp only [← chkBytes_as, ← chkU64_as] at h3 h4
    cases y
    exact ⟨_, h2, _, h5, by simp_all⟩

theorem expect_both (x : Option JResult) (y : Option TxExpect) : toExpect? x = some y ↔ Both ExpectAs x y := by
  cases x with
  | none => cases y <;> simp [toExpect?, Both]
  | some x => cases y <;> simp [toExpect?, Both, Option.bind_eq_some_iff, expect_as]

end Arwen.Props
