import Verif.Props.DebugText
import Verif.Props.Aggregate
import Verif.Props.Outcome
/-
C68: what one request of the debugger stores, the next one finds.
-/
namespace Arwen.Props
open Arwen.Spec Arwen.Mock Arwen.Debug

/-! ### Paths -/

theorem splitSlash_ne (s : Bytes) : splitSlash s ≠ [] := by
  cases s with
  | nil => simp [splitSlash]
  | cons c s =>
    simp only [splitSlash]
    split
    · simp
    · split <;> simp

theorem splitSlash_append (a b : Bytes) : splitSlash (a ++ 47 :: b) = splitSlash a ++ splitSlash b := by
  induction a with
  | nil => simp [splitSlash]
  | cons c a ih =>
    simp only [List.cons_append, splitSlash]
    split
    · simp [ih]
    · rw [ih]
      match ha : splitSlash a with
      | [] => exact absurd ha (splitSlash_ne a)
      | t :: ts => rfl

theorem splitSlash_plain {s : Bytes} (h : (47 : UInt8) ∉ s) : splitSlash s = [s] := by
  induction s with
  | nil => rfl
  | cons c s ih =>
    simp only [List.mem_cons, not_or] at h
    simp only [splitSlash]
    rw [if_neg (fun he => h.1 he.symm), ih h.2]

theorem cleanStep_plain (rooted : Bool) (parts : List Bytes) {c : Bytes} (h : 3 ≤ c.length) : cleanStep rooted parts c = c :: parts := by
  unfold cleanStep
  rw [if_neg (by rintro (rfl | rfl) <;> simp at h), if_neg (by rintro rfl; simp at h)]

theorem filePath_plain {root dir name : Bytes} (hr : root ≠ []) (hd : (47 : UInt8) ∉ dir) (hl : 3 ≤ dir.length) (hn : (47 : UInt8) ∉ name) :
    filePath root dir name = ⟨(clean root).rooted, (name ++ dotJson) :: dir :: (clean root).parts⟩ := by
  match root, hr with
  | c :: root, _ =>
    have hj : (47 : UInt8) ∉ name ++ dotJson := by
      simp only [List.mem_append, not_or]; exact ⟨hn, by decide⟩
    have h : splitSlash (c :: root ++ 47 :: dir ++ 47 :: (name ++ dotJson)) = splitSlash (c :: root) ++ [dir] ++ [name ++ dotJson] := by
      rw [splitSlash_append, splitSlash_append, splitSlash_plain hd, splitSlash_plain hj]
    unfold filePath clean
    rw [h]
    simp only [List.cons_append, List.head?_cons, List.foldl_append, List.foldl_cons, List.foldl_nil]
    rw [cleanStep_plain _ _ (c := name ++ dotJson) (by simp [dotJson]), cleanStep_plain _ _ hl]
    rfl

theorem worldFile_plain {root name : Bytes} (hr : root ≠ []) (hn : (47 : UInt8) ∉ name) :
    worldFile root name = ⟨(clean root).rooted, (name ++ dotJson) :: worldsDir :: (clean root).parts⟩ :=
  filePath_plain hr (by decide) (by decide) hn

theorem outcomeFile_plain {root name : Bytes} (hr : root ≠ []) (hn : (47 : UInt8) ∉ name) :
    outcomeFile root name = ⟨(clean root).rooted, (name ++ dotJson) :: outDir :: (clean root).parts⟩ :=
  filePath_plain hr (by decide) (by decide) hn

theorem worldFile_inj {root root' name name' : Bytes} (hr : root ≠ []) (hr' : root' ≠ []) (hn : (47 : UInt8) ∉ name)
    (hn' : (47 : UInt8) ∉ name') : worldFile root name = worldFile root' name' ↔ clean root = clean root' ∧ name = name' := by
  rw [worldFile_plain hr hn, worldFile_plain hr' hn']
  constructor
  · intro h
    simp only [Path.mk.injEq, List.cons.injEq, true_and] at h
    obtain ⟨h1, h2, h3⟩ := h
    refine ⟨?_, List.append_cancel_right h2⟩
    cases hc : clean root; cases hc' : clean root'
    rw [hc, hc'] at h1 h3
    simp_all
  · rintro ⟨h1, rfl⟩; rw [h1]

theorem outcome_not_world {root root' name name' : Bytes} (hr : root ≠ []) (hr' : root' ≠ []) (hn : (47 : UInt8) ∉ name)
    (hn' : (47 : UInt8) ∉ name') : outcomeFile root name ≠ worldFile root' name' := by
  rw [outcomeFile_plain hr hn, worldFile_plain hr' hn']
  intro h
  simp only [Path.mk.injEq, List.cons.injEq] at h
  exact absurd h.2.2.1 (by decide)

theorem root_ne (r : Req) : r.root ≠ [] := by
  unfold Req.root
  split
  · decide
  · assumption

theorem _root_.Arwen.Spec.PlainReq.plain {r : Req} (h : PlainReq r) : PlainName r.name := h.name

theorem _root_.Arwen.Spec.ForWorld.here {r : Req} {root name : Bytes} (h : ForWorld root name r) : r.name = name := h.2

/-! ### The stages of a request -/

section
variable {A : Type} {E : Env MockWorld A} {L : Lib} {n : Nat} {boot : MockWorld → St MockWorld A} {readCode : Bytes → Option Bytes}

/-- what happens to the files after a request was carried out -/
inductive Wrote (r : Req) (stop : Option Stop) (id : Bytes) (order : Order) (reply : Reply) (m : AccountMap) (d : Disk) : Result → Disk → Prop
  | before : order.stores = true → stop = some .beforeWorld → Wrote r stop id order reply m d .stopped d
  | torn : order.stores = true → stop = some .inWorld → Wrote r stop id order reply m d .stopped (d.insert (worldFile r.root id) .torn)
  | world (res : Result) (d' : Disk) : order.stores = true → stop ≠ some .beforeWorld → stop ≠ some .inWorld →
      storeOutcome r stop reply (storeWorld r.root id m d) = (res, d') → Wrote r stop id order reply m d res d'
  | query (res : Result) (d' : Disk) : order.stores = false → storeOutcome r stop reply d = (res, d') →
      Wrote r stop id order reply m d res d'

/-- the ways a request can go -/
inductive Handled (r : Req) (stop : Option Stop) (d : Disk) : Result → Disk → Prop
  | refused : digest readCode r.act = none → Handled r stop d .refused d
  | unreadable (order : Order) : digest readCode r.act = some order → load d r.root r.name = none → Handled r stop d .unreadable d
  | crashed (order : Order) (id : Bytes) (accts : Option AccountMap) : digest readCode r.act = some order →
      load d r.root r.name = some (id, accts) → perform E L n boot order accts = some none → Handled r stop d .crashed d
  | wrote (order : Order) (id : Bytes) (accts : Option AccountMap) (reply : Reply) (m : AccountMap) (res : Result) (d' : Disk) :
      digest readCode r.act = some order → load d r.root r.name = some (id, accts) →
      perform E L n boot order accts = some (some (reply, m)) → Wrote r stop id order reply m d res d' → Handled r stop d res d'

theorem handle_cases {r : Req} {stop : Option Stop} {d d' : Disk} {res : Result}
    (h : handle E L n boot readCode r stop d = some (res, d')) : Handled (E := E) (L := L) (n := n) (boot := boot) (readCode := readCode) r stop d res d' := by
  unfold handle at h
  cases hd : digest readCode r.act with
  | none => rw [hd] at h; cases h; exact .refused hd
  | some order =>
    rw [hd] at h
    dsimp only at h
    cases hl : load d r.root r.name with
    | none => rw [hl] at h; cases h; exact .unreadable order hd hl
    | some p =>
      obtain ⟨id, accts⟩ := p
      rw [hl] at h
      dsimp only at h
      match hp : perform E L n boot order accts with
      | none => rw [hp] at h; cases h
      | some none => rw [hp] at h; cases h; exact .crashed order id accts hd hl hp
      | some (some (reply, m)) =>
        rw [hp] at h
        simp only [Option.some.injEq] at h
        refine .wrote order id accts reply m res d' hd hl hp ?_
        unfold writeBack at h
        cases hs : order.stores with
        | false => rw [hs] at h; exact .query res d' hs h
        | true =>
          rw [hs, if_pos rfl] at h
          match stop with
          | some .beforeWorld => cases h; exact .before hs rfl
          | some .inWorld => cases h; exact .torn hs rfl
          | none => exact .world res d' hs (by simp) (by simp) h
          | some .beforeOutcome => exact .world res d' hs (by simp) (by simp) h
          | some .inOutcome => exact .world res d' hs (by simp) (by simp) h

/-- storing an outcome under a plain name touches no world -/
theorem storeOutcome_world {r : Req} (hr : PlainReq r) {stop : Option Stop} {reply : Reply} {d d' : Disk} {res : Result}
    (h : storeOutcome r stop reply d = (res, d')) {root name : Bytes} (h0 : root ≠ []) (hn : PlainName name) :
    d'.get? (worldFile root name) = d.get? (worldFile root name) := by
  unfold storeOutcome at h
  split at h
  · cases h; rfl
  · rename_i ho
    have hne := outcome_not_world (root_ne r) h0 (hr.outcome ho).2 hn.2
    split at h
    · cases h; rfl
    · cases h; exact AMap.get?_insert_ne _ _ hne
    · cases h; exact AMap.get?_insert_ne _ _ hne

theorem load_eq {d d' : Disk} {root name : Bytes} (h : d'.get? (worldFile root name) = d.get? (worldFile root name)) :
    load d' root name = load d root name := by
  unfold load; rw [h]

theorem load_tidy {d : Disk} (hd : Tidy d) {root name : Bytes} (h0 : root ≠ []) (hn : PlainName name) {id : Bytes}
    {accts : Option AccountMap} (h : load d root name = some (id, accts)) : id = name ∧ ∃ m, accts = some m ∧ TextWorld m := by
  unfold load at h
  rcases hd root name h0 hn with h1 | h1 | ⟨m, h1, h2⟩
  · rw [h1] at h; cases h; exact ⟨rfl, _, rfl, fun a acc ha => by simp at ha⟩
  · rw [h1] at h; cases h
  · rw [h1] at h; cases h; exact ⟨rfl, m, rfl, h2⟩

/-- where the files of worlds change -/
theorem wrote_elsewhere {r : Req} (hr : PlainReq r) {stop : Option Stop} {order : Order} {reply : Reply} {m : AccountMap} {d d' : Disk}
    {res : Result} (h : Wrote r stop r.name order reply m d res d') {root name : Bytes} (h0 : root ≠ []) (hn : PlainName name)
    (ho : ¬ ForWorld root name r) : d'.get? (worldFile root name) = d.get? (worldFile root name) := by
  have hne : worldFile r.root r.name ≠ worldFile root name := fun he =>
    ho ((worldFile_inj (root_ne r) h0 hr.plain.2 hn.2).1 he)
  cases h with
  | before => rfl
  | torn => exact AMap.get?_insert_ne _ _ hne
  | world _ _ _ _ _ h => rw [storeOutcome_world hr h h0 hn]; exact AMap.get?_insert_ne _ _ hne
  | query _ _ _ h => exact storeOutcome_world hr h h0 hn

theorem forWorld_file {r : Req} {root name : Bytes} (hr : PlainReq r) (h0 : root ≠ []) (h : ForWorld root name r) :
    worldFile r.root r.name = worldFile root name :=
  (worldFile_inj (root_ne r) h0 hr.plain.2 (h.2 ▸ hr.plain.2)).2 h

/-- the file of the request's own world afterwards -/
theorem wrote_here {r : Req} (hr : PlainReq r) {stop : Option Stop} {order : Order} {reply : Reply} {m : AccountMap} {d d' : Disk}
    {res : Result} (h : Wrote r stop r.name order reply m d res d') :
    (d'.get? (worldFile r.root r.name) = d.get? (worldFile r.root r.name) ∧ ((order.stores = true ∧ res = .stopped) ∨ order.stores = false)) ∨
    (d'.get? (worldFile r.root r.name) = some .torn ∧ stop = some .inWorld ∧ res = .stopped) ∨
    (d'.get? (worldFile r.root r.name) = some (.world r.name (reread m)) ∧ order.stores = true ∧ stop ≠ some .inWorld) := by
  cases h with
  | before h1 => exact .inl ⟨rfl, .inl ⟨h1, rfl⟩⟩
  | torn _ h => exact .inr (.inl ⟨AMap.get?_insert_self .., h, rfl⟩)
  | world _ _ hs _ hi h =>
    refine .inr (.inr ⟨?_, hs, hi⟩)
    rw [storeOutcome_world hr h (root_ne r) hr.plain]
    unfold storeWorld
    rw [AMap.get?_insert_self, coerce_text hr.plain.1]
  | query _ _ hs h => exact .inl ⟨storeOutcome_world hr h (root_ne r) hr.plain, .inr hs⟩

/-- a request to a world touches the files of no other world -/
theorem handled_elsewhere {r : Req} (hr : PlainReq r) {stop : Option Stop} {d d' : Disk} (hd : Tidy d) {res : Result}
    (h : handle E L n boot readCode r stop d = some (res, d')) {root name : Bytes} (h0 : root ≠ []) (hn : PlainName name)
    (ho : ¬ ForWorld root name r) : d'.get? (worldFile root name) = d.get? (worldFile root name) := by
  cases handle_cases h with
  | refused => rfl
  | unreadable => rfl
  | crashed => rfl
  | wrote order id accts reply m _ _ h1 h2 h3 h4 =>
    obtain ⟨rfl, _⟩ := load_tidy hd (root_ne r) hr.plain h2
    exact wrote_elsewhere hr h4 h0 hn ho

/-! ### C68 -/

/-- The folder stays in order: the file of a world holds that world, unless writing it was interrupted. -/
theorem c68_tidy {r : Req} (hr : PlainReq r) {stop : Option Stop} {d d' : Disk} (hd : Tidy d) {res : Result}
    (h : handle E L n boot readCode r stop d = some (res, d')) : Tidy d' := by
  intro root name h0 hn
  by_cases ho : ForWorld root name r
  · rw [← forWorld_file hr h0 ho]
    have hd' := hd r.root r.name (root_ne r) hr.plain
    rw [← ho.here]
    cases handle_cases h with
    | refused => exact hd'
    | unreadable => exact hd'
    | crashed => exact hd'
    | wrote order id accts reply m _ _ h1 h2 h3 h4 =>
      obtain ⟨rfl, _⟩ := load_tidy hd (root_ne r) hr.plain h2
      rcases wrote_here hr h4 with ⟨h5, _⟩ | ⟨h5, _⟩ | ⟨h5, _⟩
      · rw [h5]; exact hd'
      · exact .inr (.inl h5)
      · exact .inr (.inr ⟨_, h5, reread_isText m⟩)
  · rw [handled_elsewhere hr hd h h0 hn ho]; exact hd root name h0 hn

/-- A request to one world leaves what is found in every other world alone, however it ends. -/
theorem c68_others {r : Req} (hr : PlainReq r) {stop : Option Stop} {d d' : Disk} (hd : Tidy d) {res : Result}
    (h : handle E L n boot readCode r stop d = some (res, d')) {root name : Bytes} (h0 : root ≠ []) (hn : PlainName name)
    (ho : ¬ ForWorld root name r) : found d' root name = found d root name := by
  unfold found; rw [load_eq (handled_elsewhere hr hd h h0 hn ho)]

/-- A query changes no world at all, not even its own, however it ends. -/
theorem c68_query {r : Req} (hr : PlainReq r) (hq : IsQuery r) {stop : Option Stop} {d d' : Disk} (hd : Tidy d) {res : Result}
    (h : handle E L n boot readCode r stop d = some (res, d')) {root name : Bytes} (h0 : root ≠ []) (hn : PlainName name) :
    found d' root name = found d root name := by
  by_cases ho : ForWorld root name r
  · suffices hf : d'.get? (worldFile root name) = d.get? (worldFile root name) by unfold found; rw [load_eq hf]
    rw [← forWorld_file hr h0 ho]
    cases handle_cases h with
    | refused => rfl
    | unreadable => rfl
    | crashed => rfl
    | wrote order id accts reply m _ _ h1 h2 h3 h4 =>
      obtain ⟨rfl, _⟩ := load_tidy hd (root_ne r) hr.plain h2
      have hs : order.stores = false := by
        obtain ⟨c, a, f, hq⟩ := hq
        rw [hq] at h1
        simp only [digest] at h1
        split at h1
        · cases h1; rfl
        · cases h1
      cases h4 with
      | before hx => exact absurd (hs.symm.trans hx) (by simp)
      | torn hx => exact absurd (hs.symm.trans hx) (by simp)
      | world _ _ hx => exact absurd (hs.symm.trans hx) (by simp)
      | query _ _ _ hx => exact storeOutcome_world hr hx (root_ne r) hr.plain
  · exact c68_others hr hd h h0 hn ho

/-! ### Carrying out a request -/

/-- a new world has no snapshots, so that nothing the VM does to it changes the accounts -/
theorem reached_newWorld (hE : E.hook = MockWorld.hook L) (hL : StillBuiltins L) {w v : MockWorld} (h0 : w.snapshots = [])
    (h : Reached E w v) : v.accts = w.accts ∧ v.snapshots = [] := by
  induction h with
  | start => exact ⟨rfl, h0⟩
  | builtin v i _ ih =>
    rw [hE]
    have : ((MockWorld.hook L).processBuiltIn v i).2 = v := by
      show (match v.err with | some e => ((Except.error e : Except Err BuiltinOutput), v) | none => L.builtin v i).2 = v
      split
      · rfl
      · exact hL v i
    rw [this]; exact ih
  | revert v i _ ih =>
    rw [hE]
    have : (MockWorld.hook L).revert v i = v := by
      show (v.revert i).2 = v
      unfold MockWorld.revert
      rw [if_pos ih.2]
    rw [this]; exact ih
  | saveCompiled v _ _ _ ih => rw [hE]; exact ih

theorem run_accts (hE : E.hook = MockWorld.hook L) (hL : StillBuiltins L) (hV : NewVM E boot) (tx : Tx) (m : AccountMap) {out : Option VMOutput}
    (h : (runTx E n tx (boot (newWorld m))).1 = some out) : (runTx E n tx (boot (newWorld m))).2.world.accts = m := by
  have := (reached_newWorld hE hL (by rw [(hV (newWorld m)).2]; rfl)
    (reached_tx n tx (hV (newWorld m)).1 (by rw [h]; simp))).1
  rw [(hV (newWorld m)).2] at this
  exact this

/-- the accounts after an order was carried out, on a world that was stored as a world -/
inductive Changed (m : AccountMap) : Reply → AccountMap → Prop
  | account (a : Addr) (acc : WAcc) : acc.storage = AMap.empty → acc.asyncCallData = [] → Changed m (.account a acc) (m.insert a acc)
  | error : Changed m (.output none) m
  | output (tx : Tx) (o : VMOutput) (w : MockWorld) : (runTx E n tx (boot (newWorld m))).1 = some (some o) → w.accts = m →
      Changed m (.output (some o)) (w.updateAccounts L o.accounts).accts

theorem perform_changed (hE : E.hook = MockWorld.hook L) (hL : StillBuiltins L) (hV : NewVM E boot) {order : Order} {m m' : AccountMap}
    {reply : Reply} (hs : order.stores = true) (h : perform E L n boot order (some m) = some (some (reply, m'))) :
    Changed (E := E) (L := L) (n := n) (boot := boot) m reply m' := by
  have run : ∀ tx, ((runTx E n tx (boot (newWorld m))).1.map fun out =>
      (keepOutput L false (runTx E n tx (boot (newWorld m))).2.world out).map fun m => (Reply.output out, m)) = some (some (reply, m')) →
      Changed (E := E) (L := L) (n := n) (boot := boot) m reply m' := by
    intro tx h
    cases hr : (runTx E n tx (boot (newWorld m))).1 with
    | none => rw [hr] at h; cases h
    | some out =>
      have ha := run_accts hE hL hV tx m hr
      rw [hr] at h
      cases out with
      | none =>
        simp only [Option.map_some, keepOutput, Option.some.injEq, Prod.mk.injEq] at h
        obtain ⟨rfl, rfl⟩ := h
        rw [ha]; exact .error
      | some o =>
        simp only [Option.map_some, keepOutput, Bool.false_and, Bool.false_eq_true, if_false, Option.some.injEq, Prod.mk.injEq] at h
        obtain ⟨rfl, rfl⟩ := h
        exact .output tx o _ hr ha
  cases order with
  | account a b nonce =>
    simp only [perform, Option.map_some, Option.some.injEq, Prod.mk.injEq] at h
    obtain ⟨rfl, rfl⟩ := h
    exact .account a _ rfl rfl
  | deploy i =>
    simp only [perform, Option.getD_some, Option.isNone_some] at h
    split at h
    · cases h; exact .error
    · exact run _ h
  | call i =>
    simp only [perform, Option.getD_some, Option.isNone_some] at h
    exact run _ h
  | query i => cases hs

/-- the accounts of an output, as `Props/Aggregate` applies them -/
theorem updated_get {m : AccountMap} {w : MockWorld} (hw : w.accts = m) (accounts : AMap Addr OutAcc) (b : Addr) :
    (w.updateAccounts L accounts).accts.get? b = applied L (m.get? b) (accounts.get? b) := by
  subst hw; exact updateAccounts_get w accounts b

theorem storeAll_get (l : List (Bytes × Bytes)) (hn : (l.map Prod.fst).Nodup) (m : AMap Bytes Bytes) (k : Bytes) :
    (l.foldl (fun m p => m.insert p.1 p.2) m).get? k = (AMap.lookupL k l).or (m.get? k) := by
  induction l generalizing m with
  | nil => simp [AMap.lookupL]
  | cons p l ih =>
    simp only [List.map_cons, List.nodup_cons] at hn
    rw [List.foldl_cons, ih hn.2]
    by_cases hp : p.1 = k
    · have : AMap.lookupL k l = none := by
        cases hk : AMap.lookupL k l with
        | none => rfl
        | some v =>
          have := List.mem_map_of_mem (f := Prod.fst) (mem_of_get ⟨l, hn.2⟩ (show AMap.get? ⟨l, hn.2⟩ k = some v from hk))
          exact absurd (hp ▸ this) hn.1
      rw [this, hp, AMap.get?_insert_self]
      obtain ⟨a, b⟩ := p
      simp only at hp
      simp [AMap.lookupL, hp]
    · rw [AMap.get?_insert_ne _ _ hp]
      obtain ⟨a, b⟩ := p
      simp only at hp
      simp [AMap.lookupL, hp]

theorem applyOutput_stored (x : OutAcc) (acc : WAcc) (k : Bytes) :
    (MockWorld.applyOutput L x acc).storage.get? k = (x.storage.get? k).or (acc.storage.get? k) := by
  have h := storeAll_get x.storage.entries x.storage.nodup acc.storage k
  unfold MockWorld.applyOutput WAcc.setCodeAndMetadata
  dsimp only
  rw [← show AMap.lookupL k x.storage.entries = x.storage.get? k from rfl, ← h]
  split <;> split <;> (try split) <;> (try split) <;> rfl

theorem applyOutput_async (x : OutAcc) (acc : WAcc) : (MockWorld.applyOutput L x acc).asyncCallData = acc.asyncCallData ∨
    ∃ t rest, x.transfers = t :: rest ∧ (MockWorld.applyOutput L x acc).asyncCallData = t.data := by
  unfold MockWorld.applyOutput WAcc.setCodeAndMetadata
  dsimp only
  cases ht : x.transfers with
  | nil => left; by_cases h1 : x.nonce > acc.nonce <;> by_cases h2 : x.code = [] <;> simp [h1, h2]
  | cons t rest =>
    dsimp only
    by_cases hd : t.data ≠ []
    · right; refine ⟨t, rest, rfl, ?_⟩; rw [if_pos hd]
    · left; rw [if_neg hd]; by_cases h1 : x.nonce > acc.nonce <;> by_cases h2 : x.code = [] <;> simp [h1, h2]

theorem applyOutput_applied (x : OutAcc) (before : Option WAcc) :
    OutputApplied x before (MockWorld.applyOutput L x (before.getD { owner := x.deployer.getD [] })) := by
  refine ⟨?_, ?_, fun k => ?_, ?_, ?_⟩
  · unfold MockWorld.applyOutput WAcc.setCodeAndMetadata
    cases before <;> dsimp only <;> (split <;> split <;> (try split) <;> (try split) <;> rfl)
  · unfold MockWorld.applyOutput WAcc.setCodeAndMetadata
    cases before <;> simp only [Option.map_none, Option.map_some, Option.getD_none, Option.getD_some] <;>
      (split <;> split <;> (try split) <;> (try split) <;> rfl)
  · rw [applyOutput_stored]
    cases before <;> rfl
  · unfold MockWorld.applyOutput WAcc.setCodeAndMetadata
    cases before <;> simp only [Option.map_none, Option.map_some, Option.getD_none, Option.getD_some] <;>
      (split <;> split <;> (try split) <;> (try split) <;> rfl)
  · unfold MockWorld.applyOutput WAcc.setCodeAndMetadata
    cases before <;> simp only [Option.map_none, Option.map_some, Option.getD_none, Option.getD_some] <;>
      (split <;> split <;> (try split) <;> (try split) <;> rfl)

/-- a reply in well-formed UTF-8 leaves the world in well-formed UTF-8 -/
theorem changed_text {m m' : AccountMap} {reply : Reply} (h : Changed (E := E) (L := L) (n := n) (boot := boot) m reply m')
    (hm : TextWorld m) (hr : TextReply reply) : TextWorld m' := by
  cases h with
  | account a acc _ _ =>
    intro b x hb
    rw [AMap.get?_insert] at hb
    split at hb
    · rename_i he; cases hb; exact he ▸ hr
    · exact hm b x hb
  | error => exact hm
  | output tx o w ho hw =>
    intro b y hb
    rw [updated_get hw] at hb
    unfold applied at hb
    cases hx : o.accounts.get? b with
    | none => rw [hx] at hb; exact hm b y hb
    | some x =>
      rw [hx] at hb
      simp only [Option.some.injEq] at hb
      subst hb
      obtain ⟨h1, h2, h3⟩ := hr b x hx
      have hold : IsText ((m.get? b).getD { owner := x.deployer.getD [] }).asyncCallData ∧
          ∀ k v, ((m.get? b).getD { owner := x.deployer.getD [] }).storage.get? k = some v → IsText k := by
        cases ho : m.get? b with
        | none => exact ⟨text_nil, fun k v hk => by simp at hk⟩
        | some z => exact (hm b z ho).2
      refine ⟨h1, ?_, fun k v hk => ?_⟩
      · rcases applyOutput_async (L := L) x ((m.get? b).getD { owner := x.deployer.getD [] }) with h | ⟨t, rest, ht, h⟩
        · rw [h]; exact hold.1
        · rw [h]; exact h3 t rest ht
      · rw [applyOutput_stored] at hk
        cases hs : x.storage.get? k with
        | some v' => exact h2 k v' hs
        | none => rw [hs] at hk; exact hold.2 k v hk

theorem outputApplied_same {x : OutAcc} {before : Option WAcc} {y z : WAcc} (h : OutputApplied x before y) (hs : SameAccount y z) :
    OutputApplied x before z := by
  have hr := hs.rest
  refine ⟨?_, ?_, fun k => ?_, ?_, ?_⟩
  · rw [← hr]; exact h.balance
  · rw [← hr]; exact h.nonce
  · rw [← hs.storage k]; exact h.storage k
  · rw [← hr]; exact h.code
  · rw [← hr]; exact h.owner

/-- what was changed and written in well-formed UTF-8 is read -/
theorem changed_happened {m m' m'' : AccountMap} {reply : Reply} (h : Changed (E := E) (L := L) (n := n) (boot := boot) m reply m')
    (hs : SameEntries m' m'') : Happened reply m m'' := by
  cases h with
  | account a acc _ _ =>
    intro b
    have hb := hs b
    rw [AMap.get?_insert] at hb
    by_cases he : b = a
    · subst he
      rw [if_pos rfl] at hb ⊢
      rcases hb with ⟨h, _⟩ | ⟨x, y, h1, h2, h3⟩
      · cases h
      · cases h1
        refine ⟨y, h2, ⟨?_, fun k => (h3.storage k).symm⟩⟩
        rw [← h3.rest]
    · rw [if_neg he]
      rw [if_neg (fun h => he h.symm)] at hb
      exact hb
  | error => exact hs
  | output tx o w ho hw =>
    intro b
    have hb := hs b
    rw [updated_get hw] at hb
    unfold applied at hb
    cases hx : o.accounts.get? b with
    | none => rw [hx] at hb; exact hb
    | some x =>
      rw [hx] at hb
      rcases hb with ⟨h, _⟩ | ⟨y, z, h1, h2, h3⟩
      · cases h
      · cases h1
        exact ⟨z, h2, outputApplied_same (applyOutput_applied x _) h3⟩

/-! ### C68, continued -/

/-- What a request says that happened is what the next request to the same world finds, provided that everything that is written as
text is well-formed UTF-8: the accounts of the reply are changed in this way, and no others. Missing: addresses, keys of stored values
and data of transfers with other bytes, for which it does not hold (`c68_text_neg`). -/
theorem c68_next_partial (hE : E.hook = MockWorld.hook L) (hL : StillBuiltins L) (hV : NewVM E boot) {r : Req} (hr : PlainReq r)
    (hq : ¬ IsQuery r) {stop : Option Stop} {d d' : Disk} (hd : Tidy d) {reply : Reply}
    (h : handle E L n boot readCode r stop d = some (.done reply, d')) (ht : TextReply reply) :
    ∃ before after, found d (folderOf r) (nameOf r) = some before ∧ found d' (folderOf r) (nameOf r) = some after ∧ Happened reply before after := by
  cases handle_cases h with
  | wrote order id accts reply' m' _ _ h1 h2 h3 h4 =>
    obtain ⟨rfl, m, rfl, hm⟩ := load_tidy hd (root_ne r) hr.plain h2
    have hs : order.stores = true := by
      cases ha : r.act with
      | query c a f => exact absurd ⟨c, a, f, ha⟩ hq
      | createAccount | deploy | upgrade | run =>
        rw [ha] at h1
        simp only [digest] at h1
        split at h1
        · first | (cases h1; done) | (cases h1; rfl) | (split at h1 <;> cases h1; rfl)
        · first | (cases h1; done) | (cases h1; rfl) | (split at h1 <;> cases h1; rfl)
    obtain ⟨rfl, hf⟩ : reply' = reply ∧ d'.get? (worldFile r.root r.name) = some (.world r.name (reread m')) := by
      cases h4 with
      | world _ _ _ _ _ hx =>
        refine ⟨?_, ?_⟩
        · unfold storeOutcome at hx
          split at hx
          · cases hx; rfl
          · split at hx <;> cases hx; rfl
        · rw [storeOutcome_world hr hx (root_ne r) hr.plain]
          unfold storeWorld
          rw [AMap.get?_insert_self, coerce_text hr.plain.1]
      | query _ _ hx => exact absurd (hs.symm.trans hx) (by simp)
    have hc := perform_changed hE hL hV hs h3
    refine ⟨m, reread m', ?_, ?_, changed_happened hc (reread_same (changed_text hc hm ht))⟩
    · show found d r.root r.name = _; unfold found; rw [h2]; rfl
    · show found d' r.root r.name = _; unfold found load; rw [hf]; rfl

/-- A request that does not succeed changes no world: every world is found as before. -/
theorem c68_failed {E : Env MockWorld EeiCall} {boot : MockWorld → St MockWorld EeiCall} (hE : E.hook = MockWorld.hook L) (hA : E.api = eei E)
    (hB : OkBuiltins E) (hL : StillBuiltins L) (hV : NewVM E boot) {r : Req} (hr : PlainReq r) {stop : Option Stop} {d d' : Disk} (hd : Tidy d)
    {res : Result} (h : handle E L n boot readCode r stop d = some (res, d')) (hf : Failed res) {root name : Bytes} (h0 : root ≠ [])
    (hn : PlainName name) : SameFound (found d root name) (found d' root name) := by
  have refl : ∀ x, SameFound x x := by
    intro x
    cases x with
    | none => trivial
    | some m => exact sameEntries_refl m
  by_cases ho : ForWorld root name r
  · have hfile := forWorld_file hr h0 ho
    cases handle_cases h with
    | refused => exact refl _
    | unreadable => exact refl _
    | crashed => exact refl _
    | wrote order id accts reply m' _ _ h1 h2 h3 h4 =>
      obtain ⟨rfl, m, rfl, hm⟩ := load_tidy hd (root_ne r) hr.plain h2
      have eq : d'.get? (worldFile r.root r.name) = d.get? (worldFile r.root r.name) → SameFound (found d root name) (found d' root name) := by
        intro hx
        rw [hfile] at hx
        unfold found; rw [load_eq hx]; exact refl _
      rcases wrote_here hr h4 with ⟨h5, _⟩ | ⟨_, _, h6⟩ | ⟨h5, hs, hi⟩
      · exact eq h5
      · subst h6; exact hf.elim
      · have hc := perform_changed hE hL hV hs h3
        have hrep : res = .stopped ∨ res = .done reply := by
          cases h4 with
          | before | torn => exact .inl rfl
          | world _ _ _ _ _ hx | query _ _ _ hx =>
            unfold storeOutcome at hx
            split at hx
            · cases hx; exact .inr rfl
            · split at hx
              · cases hx; exact .inl rfl
              · cases hx; exact .inl rfl
              · cases hx; exact .inr rfl
        have hm' : m' = m := by
          rcases hrep with rfl | rfl
          · exact hf.elim
          · cases hc with
            | account => exact hf.elim
            | error => rfl
            | output tx o w hx hw =>
              obtain ⟨e, s, rfl⟩ := runTx_error (finalApi_eei hA) hB n tx hx hf
              exact hw
        subst hm'
        have h2' : load d root name = some (r.name, some m') := by
          have : load d root name = load d r.root r.name := by unfold load; rw [hfile, ho.here]
          rw [this, h2]
        unfold found
        rw [h2']
        unfold load
        rw [← hfile, h5]
        exact reread_same hm
  · rw [c68_others hr hd h h0 hn ho]; exact refl _

/-- A request that is ended from outside, but not while it writes the world, has happened or has not: its world is found as before or
as after the same request without the interruption. Missing: the time while the file is written (`c68_stop_neg`). -/
theorem c68_stop_partial {r : Req} (hr : PlainReq r) {stop : Option Stop} (hs : stop ≠ some .inWorld) {d d' : Disk} (hd : Tidy d) {res : Result}
    (h : handle E L n boot readCode r stop d = some (res, d')) :
    found d' (folderOf r) (nameOf r) = found d (folderOf r) (nameOf r) ∨
    ∃ res2 d2, handle E L n boot readCode r none d = some (res2, d2) ∧ found d' (folderOf r) (nameOf r) = found d2 (folderOf r) (nameOf r) := by
  show found d' r.root r.name = found d r.root r.name ∨
    ∃ res2 d2, handle E L n boot readCode r none d = some (res2, d2) ∧ found d' r.root r.name = found d2 r.root r.name
  cases handle_cases h with
  | refused => exact .inl rfl
  | unreadable => exact .inl rfl
  | crashed => exact .inl rfl
  | wrote order id accts reply m _ _ h1 h2 h3 h4 =>
    obtain ⟨rfl, _⟩ := load_tidy hd (root_ne r) hr.plain h2
    rcases wrote_here hr h4 with ⟨h5, _⟩ | ⟨_, h6, _⟩ | ⟨h5, hst, _⟩
    · left; unfold found; rw [load_eq h5]
    · exact absurd h6 hs
    · right
      have hh : ∃ x, handle E L n boot readCode r none d = some x ∧ x = storeOutcome r none reply (storeWorld r.root r.name m d) := by
        unfold handle
        rw [h1]; dsimp only
        rw [h2]; dsimp only
        rw [h3]; dsimp only
        unfold writeBack
        rw [hst]
        exact ⟨_, rfl, rfl⟩
      obtain ⟨⟨res2, d2⟩, hh1, hh2⟩ := hh
      refine ⟨res2, d2, hh1, ?_⟩
      have := storeOutcome_world hr hh2.symm (root_ne r) hr.plain
      unfold storeWorld at this
      rw [AMap.get?_insert_self, coerce_text hr.plain.1] at this
      unfold found
      rw [load_eq (h5.trans this.symm)]

/-- An interruption while the world is written leaves a file that no request can read, and it stays so. -/
theorem c68_stuck {r : Req} (hr : PlainReq r) {stop : Option Stop} {d d' : Disk} (hd : Tidy d) {res : Result}
    (h : handle E L n boot readCode r stop d = some (res, d')) {root name : Bytes} (h0 : root ≠ []) (hn : PlainName name)
    (hf : found d root name = none) : found d' root name = none ∧ (ForWorld root name r → res = .refused ∨ res = .unreadable) := by
  by_cases ho : ForWorld root name r
  · have hfile := forWorld_file hr h0 ho
    have hl : load d root name = load d r.root r.name := by unfold load; rw [hfile, ho.here]
    cases handle_cases h with
    | refused => exact ⟨hf, fun _ => .inl rfl⟩
    | unreadable => exact ⟨hf, fun _ => .inr rfl⟩
    | crashed order id accts h1 h2 =>
      obtain ⟨rfl, m, rfl, _⟩ := load_tidy hd (root_ne r) hr.plain h2
      unfold found at hf; rw [hl, h2] at hf; cases hf
    | wrote order id accts reply m' _ _ h1 h2 =>
      obtain ⟨rfl, m, rfl, _⟩ := load_tidy hd (root_ne r) hr.plain h2
      unfold found at hf; rw [hl, h2] at hf; cases hf
  · exact ⟨by rw [c68_others hr hd h h0 hn ho]; exact hf, fun h => absurd h ho⟩

/-! ### Histories -/

/-- what becomes of a request depends on the file of its own world only -/
theorem handle_local {r : Req} (hr : PlainReq r) {stop : Option Stop} {d d' e : Disk} (hd : Tidy d) (he : Tidy e) {res : Result}
    (h : handle E L n boot readCode r stop d = some (res, d')) (hf : e.get? (worldFile r.root r.name) = d.get? (worldFile r.root r.name)) :
    ∃ e', handle E L n boot readCode r stop e = some (res, e') ∧
      e'.get? (worldFile r.root r.name) = d'.get? (worldFile r.root r.name) := by
  have hl : load e r.root r.name = load d r.root r.name := load_eq hf
  cases handle_cases h with
  | refused h1 => exact ⟨e, by unfold handle; rw [h1], hf⟩
  | unreadable order h1 h2 => exact ⟨e, by unfold handle; rw [h1]; dsimp only; rw [hl, h2], hf⟩
  | crashed order id accts h1 h2 h3 => exact ⟨e, by unfold handle; rw [h1]; dsimp only; rw [hl, h2]; dsimp only; rw [h3], hf⟩
  | wrote order id accts reply m _ _ h1 h2 h3 h4 =>
    obtain ⟨rfl, _⟩ := load_tidy hd (root_ne r) hr.plain h2
    have out : ∀ (x y : Disk) x' res, storeOutcome r stop reply x = (res, x') → ∃ y', storeOutcome r stop reply y = (res, y') := by
      intro x y x' res hx
      unfold storeOutcome at hx ⊢
      split at hx
      · rename_i ho; rw [if_pos ho]; cases hx; exact ⟨_, rfl⟩
      · rename_i ho
        rw [if_neg ho]
        split at hx <;> cases hx <;> exact ⟨_, rfl⟩
    have hh : handle E L n boot readCode r stop e = some (writeBack r stop order r.name reply m e) := by
      unfold handle
      rw [h1]; dsimp only
      rw [hl, h2]; dsimp only
      rw [h3]
    rw [hh]
    unfold writeBack
    cases h4 with
    | before hs hb =>
      subst hb
      exact ⟨e, by simp only [hs, if_true], hf⟩
    | torn hs hb =>
      subst hb
      exact ⟨e.insert (worldFile r.root r.name) .torn, by simp only [hs, if_true], by rw [AMap.get?_insert_self, AMap.get?_insert_self]⟩
    | world _ _ hs hb hi hx =>
      obtain ⟨e', hy⟩ := out _ (storeWorld r.root r.name m e) _ _ hx
      refine ⟨e', ?_, ?_⟩
      · simp only [hs, if_true]
        match stop, hb, hi with
        | none, _, _ => exact congrArg some hy
        | some .beforeOutcome, _, _ => exact congrArg some hy
        | some .inOutcome, _, _ => exact congrArg some hy
        | some .beforeWorld, hb, _ => exact absurd rfl hb
        | some .inWorld, _, hi => exact absurd rfl hi
      · rw [storeOutcome_world hr hy (root_ne r) hr.plain, storeOutcome_world hr hx (root_ne r) hr.plain]
        unfold storeWorld
        rw [AMap.get?_insert_self, AMap.get?_insert_self]
    | query _ _ hs hx =>
      obtain ⟨e', hy⟩ := out _ e _ _ hx
      refine ⟨e', ?_, ?_⟩
      · simp only [hs, Bool.false_eq_true, if_false, hy]
      · rw [storeOutcome_world hr hy (root_ne r) hr.plain, storeOutcome_world hr hx (root_ne r) hr.plain, hf]

/-- Worlds do not know of each other: after any number of requests to any worlds, however they ended, each request to one world got the
answer, and that world is found, as if there had been only the requests to that world. -/
theorem c68_history {root name : Bytes} (h0 : root ≠ []) (hn : PlainName name) :
    ∀ (l : List (Req × Option Stop)) (d d' e : Disk) (rs : List Result), (∀ p ∈ l, PlainReq p.1) → Tidy d → Tidy e →
      e.get? (worldFile root name) = d.get? (worldFile root name) →
      history E L n boot readCode l d = some (rs, d') →
      ∃ e', history E L n boot readCode (l.filter fun p => decide (ForWorld root name p.1)) e =
          some (((l.zip rs).filter fun p => decide (ForWorld root name p.1.1)).map Prod.snd, e') ∧
        found e' root name = found d' root name
  | [], d, d', e, rs, _, _, _, hf, h => by
    cases h
    exact ⟨e, rfl, by unfold found; rw [load_eq hf]⟩
  | (r, stop) :: l, d, d', e, rs, hl, hd, he, hf, h => by
    rw [history] at h
    cases hh : handle E L n boot readCode r stop d with
    | none => rw [hh] at h; cases h
    | some p =>
      obtain ⟨res, d1⟩ := p
      rw [hh] at h
      dsimp only at h
      cases ht : history E L n boot readCode l d1 with
      | none => rw [ht] at h; cases h
      | some q =>
        obtain ⟨rs1, d2⟩ := q
        rw [ht] at h
        simp only [Option.map_some, Option.some.injEq, Prod.mk.injEq] at h
        obtain ⟨rfl, rfl⟩ := h
        have hr := hl (r, stop) List.mem_cons_self
        have hd1 : Tidy d1 := c68_tidy hr hd hh
        have hl' : ∀ p ∈ l, PlainReq p.1 := fun p hp => hl p (List.mem_cons_of_mem _ hp)
        by_cases ho : ForWorld root name r
        · have hfile := forWorld_file hr h0 ho
          obtain ⟨e1, h1, h2⟩ := handle_local hr hd he hh (by rw [hfile]; exact hf)
          rw [hfile] at h2
          obtain ⟨e', h3, h4⟩ := c68_history h0 hn l d1 d2 e1 rs1 hl' hd1 (c68_tidy hr he h1) h2 ht
          refine ⟨e', ?_, h4⟩
          rw [List.filter_cons_of_pos (by simpa using ho), history, h1]
          dsimp only
          rw [h3, List.zip_cons_cons, List.filter_cons_of_pos (by simpa using ho)]
          rfl
        · have h2 := handled_elsewhere hr hd hh h0 hn ho
          obtain ⟨e', h3, h4⟩ := c68_history h0 hn l d1 d2 e rs1 hl' hd1 he (by rw [hf, h2]) ht
          refine ⟨e', ?_, h4⟩
          rw [List.filter_cons_of_neg (by simpa using ho), h3, List.zip_cons_cons, List.filter_cons_of_neg (by simpa using ho)]

/-! ### What a request asks for -/

theorem mapM_hex {l : List Bytes} {r : List Bytes} (h : l.mapM hexDecode = some r) : l.map hexDecode = r.map some := by
  induction l generalizing r with
  | nil => cases h; rfl
  | cons a l ih =>
    rw [List.mapM_cons] at h
    cases ha : hexDecode a with
    | none => rw [ha] at h; cases h
    | some x =>
      cases hl : l.mapM hexDecode with
      | none => rw [ha, hl] at h; cases h
      | some y =>
        rw [ha, hl] at h
        cases h
        rw [List.map_cons, List.map_cons, ha, ih hl]

theorem common_means {c : Common} {vm : VMInput} (h : digestCommon c = some vm) : CommonMeans c vm := by
  unfold digestCommon at h
  split at h
  · cases h
  · rename_i h0
    split at h
    · cases h
    · rename_i caller h1
      split at h
      · cases h
      · rename_i h2
        split at h
        · cases h
        · rename_i v h3
          cases h4 : c.argumentsHex.mapM hexDecode with
          | none => rw [h4] at h; cases h
          | some args =>
            rw [h4] at h
            cases h
            refine ⟨⟨h0, h1⟩, mapM_hex h4, ?_, rfl, ⟨rfl, h2⟩, rfl⟩
            unfold parseValue at h3
            split at h3
            · rename_i hv; cases h3; exact .inl ⟨hv, rfl⟩
            · rename_i hv; exact .inr ⟨hv, h3⟩

theorem hex_ok {x inline : Bytes} (h : (if x = [] then some [] else hexDecode x) = some inline) : hexDecode x ≠ none := by
  by_cases hx : x = []
  · rw [hx]; decide
  · rw [if_neg hx] at h; rw [h]; simp

theorem code_means {readCode : Bytes → Option Bytes} {c : CodeOf} {code md : Bytes} (h : digestCode readCode c = some (code, md)) :
    CodeMeans readCode c code md := by
  unfold digestCode at h
  split at h
  · cases h
  · rename_i inline hi
    split at h
    · cases h
    · rename_i code' hc
      split at h
      · cases h
      · rename_i hne
        by_cases hm : c.metadata = []
        · rw [if_pos hm] at h
          cases h
          refine ⟨?_, hex_ok hi, hne, by rw [if_pos hm]⟩
          by_cases hp : c.path = []
          · rw [if_pos hp] at hc ⊢
            cases hc
            by_cases hx : c.hex = []
            · rw [if_pos hx] at hi; cases hi; rw [hx]; rfl
            · rw [if_neg hx] at hi; exact hi
          · rw [if_neg hp] at hc ⊢; exact hc
        · rw [if_neg hm] at h
          cases hd : hexDecode c.metadata with
          | none => rw [hd] at h; cases h
          | some m =>
            rw [hd] at h
            cases h
            refine ⟨?_, hex_ok hi, hne, by rw [if_neg hm]; exact hd⟩
            by_cases hp : c.path = []
            · rw [if_pos hp] at hc ⊢
              cases hc
              by_cases hx : c.hex = []
              · rw [if_pos hx] at hi; cases hi; rw [hx]; rfl
              · rw [if_neg hx] at hi; exact hi
            · rw [if_neg hp] at hc ⊢; exact hc

/-- the transaction of an order -/
def orderTx : Order → Option Tx
  | .account .. => none
  | .deploy i => some (.create i)
  | .call i | .query i => some (.call i)

theorem digest_means {readCode : Bytes → Option Bytes} {a : Act} {o : Order} (h : digest readCode a = some o) :
    (∃ ah b nonce address balance, a = .createAccount ah b nonce ∧ o = .account address balance nonce ∧ ah ≠ [] ∧ hexDecode ah = some address ∧
      ((b = [] ∧ balance = 0) ∨ (b ≠ [] ∧ Mandos.setString 10 b = some balance))) ∨
    ∃ tx, orderTx o = some tx ∧ Means readCode a tx := by
  cases a with
  | createAccount ah b nonce =>
    simp only [digest] at h
    split at h
    · cases h
    · rename_i h0
      split at h
      · rename_i x y h1 h2
        cases h
        refine .inl ⟨ah, b, nonce, x, y, rfl, rfl, h0, h1, ?_⟩
        unfold parseValue at h2
        split at h2
        · rename_i hv; cases h2; exact .inl ⟨hv, rfl⟩
        · rename_i hv; exact .inr ⟨hv, h2⟩
      · cases h
  | deploy c code =>
    simp only [digest] at h
    split at h
    · rename_i vm b md h1 h2
      cases h
      exact .inr ⟨_, rfl, .deploy (common_means h1) (code_means h2)⟩
    · cases h
  | upgrade c code hex =>
    simp only [digest] at h
    split at h
    · rename_i vm b md a h1 h2 h3
      cases h
      exact .inr ⟨_, rfl, .upgrade (common_means h1) (code_means h2) h3⟩
    · cases h
  | run c hex fn =>
    simp only [digest] at h
    split at h
    · rename_i vm a h1 h2
      cases h
      exact .inr ⟨_, rfl, .run (common_means h1) h2⟩
    · cases h
  | query c hex fn =>
    simp only [digest] at h
    split at h
    · rename_i vm a h1 h2
      cases h
      exact .inr ⟨_, rfl, .query (common_means h1) h2⟩
    · cases h

theorem storeOutcome_reply {r : Req} {stop : Option Stop} {reply reply' : Reply} {d d' : Disk}
    (h : storeOutcome r stop reply d = (.done reply', d')) : reply' = reply := by
  unfold storeOutcome at h
  split at h
  · cases h; rfl
  · split at h
    · cases h
    · cases h
    · cases h; rfl

theorem wrote_reply {r : Req} {stop : Option Stop} {id : Bytes} {order : Order} {reply reply' : Reply} {m : AccountMap} {d d' : Disk}
    (h : Wrote r stop id order reply m d (.done reply') d') : reply' = reply := by
  cases h with
  | world _ _ _ _ _ h => exact storeOutcome_reply h
  | query _ _ _ h => exact storeOutcome_reply h

/-- The reply to a request, other than for a new account, is the output of a new virtual machine for exactly what the request asks for,
with the accounts that are found in the world that it names; a deployment by an account whose address is too short has none. -/
theorem c68_reply {r : Req} (hr : PlainReq r) {stop : Option Stop} {d d' : Disk} (hd : Tidy d) {o : Option VMOutput}
    (h : handle E L n boot readCode r stop d = some (.done (.output o), d')) :
    ∃ m tx, found d (folderOf r) (nameOf r) = some m ∧ Means readCode r.act tx ∧
      ((runTx E n tx (boot { accts := m })).1 = some o ∨ (o = none ∧ ∃ i, tx = .create i ∧ i.vm.caller.length < 30)) := by
  cases handle_cases h with
  | wrote order id accts reply m' _ _ h1 h2 h3 h4 =>
    have e := wrote_reply h4
    subst e
    obtain ⟨rfl, m, rfl, _⟩ := load_tidy hd (root_ne r) hr.plain h2
    have hf : found d (folderOf r) (nameOf r) = some m := by
      show found d r.root r.name = _
      unfold found; rw [h2]; rfl
    rcases digest_means h1 with ⟨_, _, _, _, _, _, rfl, _⟩ | ⟨tx, ht, hm⟩
    · simp only [perform, Option.map_some, Option.some.injEq, Prod.mk.injEq] at h3
      cases h3.1
    · refine ⟨m, tx, hf, hm, ?_⟩
      have hk : ∀ (t : Tx), ((runTx E n t (boot (newWorld m))).1.map fun out =>
          (keepOutput L false (runTx E n t (boot (newWorld m))).2.world out).map fun m => (Reply.output out, m)) = some (some (.output o, m')) →
          (runTx E n t (boot { accts := m })).1 = some o := by
        intro t ht
        show (runTx E n t (boot (newWorld m))).1 = _
        generalize runTx E n t (boot (newWorld m)) = q at ht
        obtain ⟨q1, q2⟩ := q
        cases q1 with
        | none => cases ht
        | some out =>
          simp only [Option.map_some, Option.some.injEq] at ht
          generalize keepOutput L false q2.world out = z at ht
          cases z with
          | none => cases ht
          | some z => cases ht; rfl
      cases order with
      | account => cases ht
      | deploy i =>
        cases ht
        simp only [perform, Option.getD_some] at h3
        split at h3
        · rename_i hl
          simp only [Option.some.injEq, Prod.mk.injEq, Reply.output.injEq] at h3
          exact .inr ⟨h3.1.symm, i, rfl, hl⟩
        · exact .inl (hk _ h3)
      | call i =>
        cases ht
        exact .inl (hk _ h3)
      | query i =>
        cases ht
        refine .inl ?_
        simp only [perform, Option.getD_some] at h3
        show (runTx E n _ (boot (newWorld m))).1 = _
        generalize runTx E n (.call i) (boot (newWorld m)) = q at h3
        obtain ⟨q1, q2⟩ := q
        cases q1 with
        | none => cases h3
        | some out =>
          simp only [Option.map_some, Option.some.injEq, Prod.mk.injEq, Reply.output.injEq] at h3
          rw [h3.1]

/-- The account in the reply to a request for a new account has the address, balance and nonce of the request. -/
theorem c68_account {r : Req} {stop : Option Stop} {d d' : Disk} {a : Addr} {acc : WAcc}
    (h : handle E L n boot readCode r stop d = some (.done (.account a acc), d')) :
    ∃ ah b nonce, r.act = .createAccount ah b nonce ∧ hexDecode ah = some a ∧ acc.nonce = nonce ∧ acc.code = [] ∧ acc.storage = AMap.empty ∧
      ((b = [] ∧ acc.balance = 0) ∨ (b ≠ [] ∧ Mandos.setString 10 b = some acc.balance)) := by
  cases handle_cases h with
  | wrote order id accts reply m' _ _ h1 h2 h3 h4 =>
    have e := wrote_reply h4
    subst e
    rcases digest_means h1 with ⟨ah, b, nonce, x, y, e1, rfl, _, e3, e4⟩ | ⟨tx, ht, hm⟩
    · simp only [perform, Option.some.injEq] at h3
      cases accts with
      | none => cases h3
      | some m =>
        simp only [Option.map_some, Option.some.injEq, Prod.mk.injEq, Reply.account.injEq] at h3
        obtain ⟨⟨rfl, rfl⟩, _⟩ := h3
        exact ⟨ah, b, nonce, e1, e3, rfl, rfl, rfl, e4⟩
    · exfalso
      cases order with
      | account => cases ht
      | deploy i =>
        simp only [perform] at h3
        split at h3
        · cases h3
        · generalize runTx E n (.create i) _ = q at h3
          obtain ⟨q1, q2⟩ := q
          cases q1 with
          | none => cases h3
          | some out =>
            simp only [Option.map_some, Option.some.injEq] at h3
            generalize keepOutput L _ q2.world out = z at h3
            cases z with
            | none => cases h3
            | some z => cases h3
      | call i =>
        simp only [perform] at h3
        generalize runTx E n (.call i) _ = q at h3
        obtain ⟨q1, q2⟩ := q
        cases q1 with
        | none => cases h3
        | some out =>
          simp only [Option.map_some, Option.some.injEq] at h3
          generalize keepOutput L _ q2.world out = z at h3
          cases z with
          | none => cases h3
          | some z => cases h3
      | query i =>
        simp only [perform] at h3
        generalize runTx E n (.call i) _ = q at h3
        obtain ⟨q1, q2⟩ := q
        cases q1 with
        | none => cases h3
        | some out => cases h3

/-- A reply is kept in the file for outcomes that the request names. -/
theorem c68_outcome {r : Req} {stop : Option Stop} {d d' : Disk} {reply : Reply} (ho : r.outcome ≠ [])
    (h : handle E L n boot readCode r stop d = some (.done reply, d')) : d'.get? (outcomeFile (folderOf r) r.outcome) = some (.outcome reply) := by
  have key : ∀ {reply' : Reply} {d d' : Disk}, storeOutcome r stop reply' d = (.done reply, d') →
      d'.get? (outcomeFile r.root r.outcome) = some (.outcome reply) := by
    intro reply' d d' h
    unfold storeOutcome at h
    rw [if_neg ho] at h
    split at h
    · cases h
    · cases h
    · cases h; exact AMap.get?_insert_self ..
  cases handle_cases h with
  | wrote order id accts reply m' _ _ h1 h2 h3 h4 =>
    cases h4 with
    | world _ _ _ _ _ h => exact key h
    | query _ _ _ h => exact key h

theorem hex_mapM {l : List Bytes} {r : List Bytes} (h : l.map hexDecode = r.map some) : l.mapM hexDecode = some r := by
  induction l generalizing r with
  | nil =>
    cases r with
    | nil => rfl
    | cons b r => cases h
  | cons a l ih =>
    cases r with
    | nil => cases h
    | cons b r =>
      simp only [List.map_cons, List.cons.injEq] at h
      rw [List.mapM_cons, h.1, ih h.2]
      rfl

theorem means_common {c : Common} {vm : VMInput} (h : CommonMeans c vm) : digestCommon c ≠ none := by
  have hv : ∃ v, parseValue c.value = some v := by
    unfold parseValue
    rcases h.value with ⟨e, _⟩ | ⟨e, e'⟩
    · rw [if_pos e]; exact ⟨_, rfl⟩
    · rw [if_neg e]; exact ⟨_, e'⟩
  obtain ⟨v, hv⟩ := hv
  unfold digestCommon
  rw [if_neg h.caller.1, h.caller.2]
  dsimp only
  rw [if_neg h.gas.2, hv]
  dsimp only
  rw [hex_mapM h.args]
  simp

theorem means_code {readCode : Bytes → Option Bytes} {c : CodeOf} {code md : Bytes} (h : CodeMeans readCode c code md) : digestCode readCode c ≠ none := by
  have h1 : (if c.hex = [] then some [] else hexDecode c.hex) = hexDecode c.hex := by
    by_cases hx : c.hex = []
    · rw [if_pos hx, hx]; rfl
    · rw [if_neg hx]
  have h2 := h.hex
  have h3 := h.code
  have h4 := h.metadata
  unfold digestCode
  rw [h1]
  cases hi : hexDecode c.hex with
  | none => exact absurd hi h2
  | some inline =>
    dsimp only
    have h5 : (if c.path = [] then some inline else readCode c.path) = some code := by
      by_cases hp : c.path = []
      · rw [if_pos hp] at h3 ⊢; rw [hi] at h3; exact h3
      · rw [if_neg hp] at h3 ⊢; exact h3
    rw [h5]
    dsimp only
    rw [if_neg h.nonempty]
    by_cases hm : c.metadata = []
    · rw [if_pos hm]; simp
    · rw [if_neg hm] at h4 ⊢; rw [h4]; simp

theorem means_digest {readCode : Bytes → Option Bytes} {a : Act} {tx : Tx} (h : Means readCode a tx) : digest readCode a ≠ none := by
  cases h with
  | deploy h1 h2 =>
    have h1 := means_common h1
    have h2 := means_code h2
    simp only [digest]
    split
    · simp
    · rename_i h
      obtain ⟨x, hx⟩ := Option.ne_none_iff_exists'.1 h1
      obtain ⟨⟨y, z⟩, hy⟩ := Option.ne_none_iff_exists'.1 h2
      exact absurd hy (h x y z hx)
  | upgrade h1 h2 h3 =>
    have h1 := means_common h1
    have h2 := means_code h2
    simp only [digest]
    split
    · simp
    · rename_i h
      obtain ⟨x, hx⟩ := Option.ne_none_iff_exists'.1 h1
      obtain ⟨⟨y, z⟩, hy⟩ := Option.ne_none_iff_exists'.1 h2
      exact absurd h3 (h x y z _ hx hy)
  | run h1 h3 =>
    have h1 := means_common h1
    simp only [digest]
    split
    · simp
    · rename_i h
      obtain ⟨x, hx⟩ := Option.ne_none_iff_exists'.1 h1
      exact absurd h3 (h x _ hx)
  | query h1 h3 =>
    have h1 := means_common h1
    simp only [digest]
    split
    · simp
    · rename_i h
      obtain ⟨x, hx⟩ := Option.ne_none_iff_exists'.1 h1
      exact absurd h3 (h x _ hx)

/-- A request that is refused asks the virtual machine for nothing, and changes no file. -/
theorem c68_refused {r : Req} {stop : Option Stop} {d d' : Disk} (h : handle E L n boot readCode r stop d = some (.refused, d')) :
    d' = d ∧ ∀ tx, ¬ Means readCode r.act tx := by
  cases handle_cases h with
  | refused h1 => exact ⟨rfl, fun tx ht => means_digest ht h1⟩
  | wrote order id accts reply m' _ _ h1 h2 h3 h4 =>
    exfalso
    have hs : ∀ {stop : Option Stop} {reply : Reply} {d d' : Disk}, storeOutcome r stop reply d ≠ (.refused, d') := by
      intro stop reply d d' h
      unfold storeOutcome at h
      split at h
      · cases h
      · split at h <;> cases h
    cases h4 with
    | world _ _ _ _ _ h => exact hs h
    | query _ _ _ h => exact hs h

/-- An account whose address is not well-formed UTF-8 is not found by the next request, whatever the request said. -/
theorem c68_lost {r : Req} (hr : PlainReq r) {stop : Option Stop} {d d' : Disk} (hd : Tidy d) {res : Result}
    (h : handle E L n boot readCode r stop d = some (res, d')) {root name : Bytes} (h0 : root ≠ []) (hn : PlainName name) {a : Addr}
    (ha : ¬ IsText a) {m : AccountMap} (hm : found d' root name = some m) : m.get? a = none := by
  have := c68_tidy hr hd h
  unfold found at hm
  cases hl : load d' root name with
  | none => rw [hl] at hm; cases hm
  | some p =>
    obtain ⟨id, accts⟩ := p
    rw [hl] at hm
    obtain ⟨_, m', rfl, ht⟩ := load_tidy this h0 hn hl
    cases hm
    cases hx : m.get? a with
    | none => rfl
    | some acc => exact absurd (ht a acc hx).1 ha

end

/-! ### Requests on an empty folder, and where the property fails -/

section
open Fixture

theorem tidy_empty : Tidy AMap.empty := fun _ _ _ _ => .inl rfl

def alice : Addr := List.replicate 32 97

/-- an account for alice, with 10 -/
def makeAlice : Req := { act := .createAccount (hexEncode alice) [49, 48] 0 }
def byAlice (value : Bytes) : Common := { impersonatedHex := hexEncode alice, gasLimit := 5000, value := value }
def deployCode (c : Bytes) : Req := { act := .deploy (byAlice []) { hex := hexEncode c } }
/-- a call of the contract that alice deployed -/
def runAlices (fn value : Bytes) : Req := { act := .run (byAlice value) (hexEncode (MockWorld.generateAddress alice 0)) fn }
def queryAlices (fn : Bytes) : Req := { act := .query (byAlice []) (hexEncode (MockWorld.generateAddress alice 0)) fn }

/-- a contract that stores under a text, under another key, and stores and fails; and another contract -/
def debugMods : List (Bytes × WasmModule EeiCall) :=
  [([1], mod [(initName, .ret), (f, put [1] [2] .ret), (g, put [255] [3] .ret), ([104], put [1] [3] <| signal)]), ([2], mod [(initName, .ret)])]
def debugEnv : Env MockWorld EeiCall := mockEnv stillLib debugMods

/-- requests on an empty folder -/
def session (l : List Req) : Option (List Result × Disk) :=
  history debugEnv stillLib 5 mockHost (fun _ => none) (l.map fun r => (r, none)) AMap.empty

/-- the last request was answered, its execution ended with this code, and the default world is found with these accounts -/
def sessionEnds (l : List Req) (code : ReturnCode) (p : AccountMap → Bool) : Bool :=
  match session l with
  | none => false
  | some (rs, d) =>
    (match rs.getLast? with
      | some (.done (.output (some o))) => decide (o.returnCode = code)
      | _ => false) &&
    (match found d defaultRoot defaultWorld with
      | none => false
      | some m => p m)

def storedAt (m : AccountMap) (k : Bytes) : Option Bytes := (m.get? (MockWorld.generateAddress alice 0)).bind fun acc => acc.storage.get? k

/-- the hypotheses of the theorems -/
example : NewVM debugEnv mockHost := fun w => ⟨mockHost_rest _ w, rfl⟩
example : debugEnv.hook = MockWorld.hook stillLib := rfl
example : debugEnv.api = eei debugEnv := rfl
example : StillBuiltins stillLib := fun _ _ => rfl
example : OkBuiltins debugEnv := by
  intro w i b h
  have h' : (match w.err with | some e => ((Except.error e : Except Err BuiltinOutput), w) | none => stillLib.builtin w i).1 = .ok b := h
  split at h'
  · cases h'
  · cases h'; rfl
/-- what the requests ask for, for `c68_reply` -/
example : Means (fun _ => none) (queryAlices f).act
    (.call { vm := { caller := alice, gasPrice := 200000000000, gasProvided := 5000 }, recipient := MockWorld.generateAddress alice 0, function := f }) :=
  .query ⟨⟨by decide +kernel, by decide +kernel⟩, rfl, .inl ⟨rfl, rfl⟩, rfl, ⟨rfl, by decide⟩, rfl⟩ (by decide +kernel)
theorem plain_default : PlainName defaultWorld := ⟨by decide +kernel, by decide⟩
example : PlainReq makeAlice ∧ PlainReq (deployCode [1]) ∧ PlainReq (runAlices f []) ∧ PlainReq (queryAlices f) :=
  ⟨⟨plain_default, fun h => absurd rfl h⟩, ⟨plain_default, fun h => absurd rfl h⟩, ⟨plain_default, fun h => absurd rfl h⟩,
    ⟨plain_default, fun h => absurd rfl h⟩⟩
example : IsQuery (queryAlices f) := ⟨_, _, _, rfl⟩
/-- addresses that the mock world makes for creators in ASCII are well-formed -/
example : IsText alice ∧ IsText (MockWorld.generateAddress alice 0) := by decide +kernel

/-- what a call stores is found by the next request -/
example : sessionEnds [makeAlice, deployCode [1], runAlices f []] .ok (fun m => storedAt m [1] == some [2]) = true := by decide +kernel
/-- a call that fails after it stored something changes nothing -/
example : sessionEnds [makeAlice, deployCode [1], runAlices f [], runAlices [104] []] .userError (fun m => storedAt m [1] == some [2]) = true := by
  decide +kernel
/-- a query of the same function stores nothing -/
example : sessionEnds [makeAlice, deployCode [1], queryAlices f] .ok (fun m => storedAt m [1] == none) = true := by decide +kernel
/-- two worlds -/
example : ¬ ForWorld defaultRoot defaultWorld { makeAlice with world := [120] } ∧ ForWorld [100, 98, 47] defaultWorld makeAlice := by decide +kernel

/-- The full statement of C68: whatever a request answers is what the next request to the same world finds. -/
def FoundAgain {A : Type} (E : Env MockWorld A) (L : Lib) (n : Nat) (boot : MockWorld → St MockWorld A) (readCode : Bytes → Option Bytes) : Prop :=
  ∀ (r : Req) (d d' : Disk) (reply : Reply), PlainReq r → ¬ IsQuery r → Tidy d → handle E L n boot readCode r none d = some (.done reply, d') →
    ∃ before after, found d (folderOf r) (nameOf r) = some before ∧ found d' (folderOf r) (nameOf r) = some after ∧ Happened reply before after

/-- An account is made at an address of 32 bytes 255. The reply says so, but the next request does not find the account: addresses
are the keys of a JSON object, and bytes that are not well-formed UTF-8 are replaced in them. -/
theorem c68_text_neg {A : Type} (E : Env MockWorld A) (L : Lib) (n : Nat) (boot : MockWorld → St MockWorld A)
    (readCode : Bytes → Option Bytes) : ¬ FoundAgain E L n boot readCode := by
  intro h
  let a : Addr := List.replicate 32 255
  let r : Req := { act := .createAccount (hexEncode a) [49] 0 }
  let acc : WAcc := { exists_ := false, nonce := 0, balance := 1 }
  have hp : PlainReq r := ⟨plain_default, fun h => absurd rfl h⟩
  have hdig : digest readCode r.act = some (.account a 1 0) := by
    have h1 : hexDecode (hexEncode a) = some a := hexDecode_encode a
    have h2 : parseValue [49] = some 1 := by decide +kernel
    show (if hexEncode a = [] then none else match hexDecode (hexEncode a), parseValue [49] with
      | some a, some b => some (Order.account a b 0) | _, _ => none) = _
    rw [h1, h2, if_neg (by decide +kernel)]
  have hl : load AMap.empty r.root r.name = some (r.name, some AMap.empty) := rfl
  have hh : handle E L n boot readCode r none AMap.empty =
      some (.done (.account a acc), storeWorld r.root r.name (AMap.empty.insert a acc) AMap.empty) := by
    unfold handle
    rw [hdig]; dsimp only
    rw [hl]
    rfl
  obtain ⟨before, after, _, h2, h3⟩ := h r _ _ _ hp (by rintro ⟨c, x, y, h⟩; cases h) tidy_empty hh
  have h4 := h3 a
  rw [if_pos rfl] at h4
  obtain ⟨y, hy, _⟩ := h4
  rw [c68_lost hp tidy_empty hh (root_ne r) hp.plain (a := a) (by decide +kernel) h2] at hy
  cases hy

/-- A contract stores a value under the key with the byte 255. The next request finds the value under a different key. -/
theorem c68_key_neg : sessionEnds [makeAlice, deployCode [1], runAlices g []] .ok (fun m =>
    storedAt m [255] == none && storedAt m [0xEF, 0xBF, 0xBD] == some [3]) = true := by decide +kernel

/-- The program is ended while it writes the world: the world of all requests before is lost. -/
theorem c68_stop_neg : ∃ d d', (session [makeAlice, deployCode [1], runAlices f []]).map Prod.snd = some d ∧
    (found d defaultRoot defaultWorld).isSome = true ∧
    handle debugEnv stillLib 5 mockHost (fun _ => none) (runAlices f []) (some .inWorld) d = some (.stopped, d') ∧
    found d' defaultRoot defaultWorld = none := by
  have h : (match session [makeAlice, deployCode [1], runAlices f []] with
    | none => false
    | some (_, d) => (found d defaultRoot defaultWorld).isSome &&
      match handle debugEnv stillLib 5 mockHost (fun _ => none) (runAlices f []) (some .inWorld) d with
      | some (.stopped, d') => (found d' defaultRoot defaultWorld).isNone
      | _ => false) = true := by decide +kernel
  cases hs : session [makeAlice, deployCode [1], runAlices f []] with
  | none => rw [hs] at h; cases h
  | some p =>
    obtain ⟨rs, d⟩ := p
    rw [hs] at h
    simp only [Bool.and_eq_true] at h
    obtain ⟨h1, h2⟩ := h
    match hh : handle debugEnv stillLib 5 mockHost (fun _ => none) (runAlices f []) (some .inWorld) d with
    | some (.stopped, d') =>
      rw [hh] at h2
      refine ⟨d, d', rfl, h1, hh, ?_⟩
      simpa using h2
    | none => rw [hh] at h2; cases h2
    | some (.refused, _) => rw [hh] at h2; cases h2
    | some (.unreadable, _) => rw [hh] at h2; cases h2
    | some (.crashed, _) => rw [hh] at h2; cases h2
    | some (.done _, _) => rw [hh] at h2; cases h2

/-- `../worlds/default` -/
def outcomeOverWorld : Bytes := [46, 46, 47] ++ worldsDir ++ [47] ++ defaultWorld

/-- A query asks for its outcome to be kept under a name with folders, which overwrites the world: afterwards it has no accounts, and
making one ends with a panic. -/
theorem c68_outcome_neg : (match session [makeAlice, deployCode [1], { queryAlices f with outcome := outcomeOverWorld }, makeAlice] with
    | some ([_, _, .done _, .crashed], d) => (found d defaultRoot defaultWorld).isNone
    | _ => false) = true := by decide +kernel

/-- Two deployments by the same account: the nonce of the account does not grow, so the second contract takes the place of the first
one, which is lost; what the first one stored belongs to the second one now. -/
theorem c68_deploy_neg : sessionEnds [makeAlice, deployCode [1], runAlices f [], deployCode [2]] .ok (fun m =>
    decide (m.entries.length = 2) && (m.get? (MockWorld.generateAddress alice 0)).map WAcc.code == some [2] && storedAt m [1] == some [2]) = true := by
  decide +kernel

/-- A call with value: the contract receives 5, but alice, who sends them, still has all the 10, so that there is more value in the
world than before. -/
theorem c68_value_neg : sessionEnds [makeAlice, deployCode [1], runAlices f [53]] .ok (fun m =>
    (m.get? alice).map WAcc.balance == some 10 && (m.get? (MockWorld.generateAddress alice 0)).map WAcc.balance == some 5 &&
    decide (wealth (newWorld m) = 15)) = true ∧
  sessionEnds [makeAlice, deployCode [1]] .ok (fun m => decide (wealth (newWorld m) = 10)) = true := by
  constructor <;> decide +kernel

end

end Arwen.Props
