import Verif.Spec.DebugServer
import Verif.Props.Debug
/-
C78: requests to the debugger that come in parallel.
-/
namespace Arwen.Props
open Arwen.Mock Arwen.Debug Arwen.Spec

/-! ### Files -/

theorem outcomeFile_inj {root root' name name' : Bytes} (hr : root ≠ []) (hr' : root' ≠ []) (hn : (47 : UInt8) ∉ name)
    (hn' : (47 : UInt8) ∉ name') : outcomeFile root name = outcomeFile root' name' ↔ clean root = clean root' ∧ name = name' := by
  rw [outcomeFile_plain hr hn, outcomeFile_plain hr' hn']
  constructor
  · intro h
    simp only [Path.mk.injEq, List.cons.injEq, true_and] at h
    obtain ⟨h1, h2, h3⟩ := h
    refine ⟨?_, List.append_cancel_right h2⟩
    cases hc : clean root; cases hc' : clean root'
    rw [hc, hc'] at h1 h3
    simp_all
  · rintro ⟨h1, rfl⟩; rw [h1]

theorem outOfTheWay_symm {r r' : Req} (h : OutOfTheWay r r') : OutOfTheWay r' r :=
  ⟨fun ⟨h1, h2⟩ => (h.1 ⟨h1.symm, h2.symm⟩).symm, fun ⟨h1, h2, h3⟩ => h.2 ⟨h1.symm, h2.symm, h2 ▸ h3⟩⟩

/-- the files that matter to a request: those that it writes and that of its world -/
def Touches (r : Req) (p : Path) : Prop := Writes r p ∨ p = worldFile r.root r.name

/-- a request that is apart from another writes no file that matters to the other -/
theorem apart_files {r r' : Req} (hr : PlainReq r) (hr' : PlainReq r') (h : OutOfTheWay r r') {p : Path} (hw : Writes r p) : ¬ Touches r' p := by
  have world : ¬ IsQuery r → p = worldFile r.root r.name → p ≠ worldFile r'.root r'.name := fun hq hp hp' =>
    hq (h.1 ((worldFile_inj (root_ne r) (root_ne r') hr.plain.2 hr'.plain.2).1 (hp ▸ hp'))).1
  have cross : ∀ {x y : Req}, PlainReq x → PlainReq y → x.outcome ≠ [] → p = outcomeFile x.root x.outcome → p ≠ worldFile y.root y.name :=
    fun {x y} hx hy ho hp hp' => outcome_not_world (root_ne x) (root_ne y) (hx.outcome ho).2 hy.plain.2 (hp ▸ hp')
  rcases hw with ⟨hq, hp⟩ | ⟨ho, hp⟩
  · rintro ((⟨_, hp'⟩ | ⟨ho', hp'⟩) | hp')
    · exact world hq hp hp'
    · exact cross hr' hr ho' hp' hp
    · exact world hq hp hp'
  · rintro ((⟨_, hp'⟩ | ⟨ho', hp'⟩) | hp')
    · exact cross hr hr' ho hp hp'
    · have := (outcomeFile_inj (root_ne r) (root_ne r') (hr.outcome ho).2 (hr'.outcome ho').2).1 (hp ▸ hp')
      exact h.2 ⟨this.1, this.2, ho⟩
    · exact cross hr hr' ho hp hp'

theorem digest_stores {readCode : Bytes → Option Bytes} {r : Req} {order : Order} (h : digest readCode r.act = some order) :
    order.stores = true ↔ ¬ IsQuery r := by
  unfold IsQuery
  cases ha : r.act with
  | createAccount ah b nonce =>
    rw [ha] at h
    simp only [digest] at h
    split at h
    · cases h
    · split at h
      · cases h; simp [Order.stores]
      · cases h
  | deploy c code => rw [ha] at h; simp only [digest] at h; split at h <;> cases h; simp [Order.stores]
  | upgrade c code hex => rw [ha] at h; simp only [digest] at h; split at h <;> cases h; simp [Order.stores]
  | run c hex fn => rw [ha] at h; simp only [digest] at h; split at h <;> cases h; simp [Order.stores]
  | query c hex fn => rw [ha] at h; simp only [digest] at h; split at h <;> cases h; simp [Order.stores]

section
variable {A : Type} {E : Env MockWorld A} {L : Lib} {n : Nat} {boot : MockWorld → St MockWorld A} {readCode : Bytes → Option Bytes}

/-- the order of a request and what came of it, if it had been carried out on these files -/
def Performed (E : Env MockWorld A) (L : Lib) (n : Nat) (boot : MockWorld → St MockWorld A) (readCode : Bytes → Option Bytes)
    (r : Req) (D : Disk) (order : Order) (reply : Reply) (m : AccountMap) : Prop :=
  ∃ accts, digest readCode r.act = some order ∧ load D r.root r.name = some (r.name, accts) ∧
    perform E L n boot order accts = some (some (reply, m))

/-- A request in progress: `d` are the files, `D` those that the answered requests would have left if they had been handled one after the
other. -/
def Midway (E : Env MockWorld A) (L : Lib) (n : Nat) (boot : MockWorld → St MockWorld A) (readCode : Bytes → Option Bytes)
    (r : Req) (D d : Disk) : Stage → Prop
  | .come => ∀ p, Touches r p → d.get? p = D.get? p
  | .read order id accts => digest readCode r.act = some order ∧ load D r.root r.name = some (id, accts) ∧ id = r.name ∧
      ∀ p, Touches r p → d.get? p = D.get? p
  | .world id reply m => id = r.name ∧ ∃ order, Performed E L n boot readCode r D order reply m ∧ order.stores = true
  | .kept reply => ∃ order m, Performed E L n boot readCode r D order reply m ∧
      (order.stores = true → d.get? (worldFile r.root r.name) = some (.world (coerce r.name) (reread m)))
  | .outcome reply => r.outcome ≠ [] ∧ ∃ order m, Performed E L n boot readCode r D order reply m ∧
      (order.stores = true → d.get? (worldFile r.root r.name) = some (.world (coerce r.name) (reread m)))
  | .ended _ => True

theorem Performed.congr {r : Req} {D D' : Disk} (hD : ∀ p, Touches r p → D'.get? p = D.get? p) {order : Order} {reply : Reply} {m : AccountMap}
    (h : Performed E L n boot readCode r D order reply m) : Performed E L n boot readCode r D' order reply m := by
  obtain ⟨accts, h1, h2, h3⟩ := h
  exact ⟨accts, h1, by rw [load_eq (hD _ (.inr rfl)), h2], h3⟩

/-- only the files that matter to the request matter -/
theorem Midway.congr {r : Req} {D D' d d' : Disk} (hD : ∀ p, Touches r p → D'.get? p = D.get? p) (hd : ∀ p, Touches r p → d'.get? p = d.get? p)
    {st : Stage} (h : Midway E L n boot readCode r D d st) : Midway E L n boot readCode r D' d' st := by
  cases st with
  | come => exact fun p hp => by rw [hd p hp, hD p hp, h p hp]
  | read order id accts =>
    obtain ⟨h1, h2, h3, h4⟩ := h
    exact ⟨h1, by rw [load_eq (hD _ (.inr rfl)), h2], h3, fun p hp => by rw [hd p hp, hD p hp, h4 p hp]⟩
  | world id reply m =>
    obtain ⟨h1, order, h2, h3⟩ := h
    exact ⟨h1, order, h2.congr hD, h3⟩
  | kept reply =>
    obtain ⟨order, m, h2, h3⟩ := h
    exact ⟨order, m, h2.congr hD, fun hs => by rw [hd _ (.inr rfl), h3 hs]⟩
  | outcome reply =>
    obtain ⟨h1, order, m, h2, h3⟩ := h
    exact ⟨h1, order, m, h2.congr hD, fun hs => by rw [hd _ (.inr rfl), h3 hs]⟩
  | ended res => trivial

/-- what a request writes, if it is handled alone -/
theorem handle_writes {r : Req} {D D' : Disk} (hD : Tidy D) (hr : PlainReq r) {res : Result}
    (h : handle E L n boot readCode r none D = some (res, D')) {p : Path} (hp : ¬ Writes r p) : D'.get? p = D.get? p := by
  have out : ∀ {reply : Reply} {d d' : Disk}, storeOutcome r none reply d = (res, d') → d'.get? p = d.get? p := by
    intro reply d d' h
    unfold storeOutcome at h
    split at h
    · cases h; rfl
    · rename_i ho
      cases h
      exact AMap.get?_insert_ne _ _ fun he => hp (.inr ⟨ho, he.symm⟩)
  cases handle_cases h with
  | refused => rfl
  | unreadable => rfl
  | crashed => rfl
  | wrote order id accts reply m _ _ h1 h2 h3 h4 =>
    obtain ⟨rfl, _⟩ := load_tidy hD (root_ne r) hr.plain h2
    cases h4 with
    | before _ hb => cases hb
    | torn _ hb => cases hb
    | world _ _ hs _ _ hw =>
      rw [out hw]
      exact AMap.get?_insert_ne _ _ fun he => hp (.inl ⟨(digest_stores h1).1 hs, he.symm⟩)
    | query _ _ _ hw => exact out hw

/-- One step of a request in progress: it writes only its own files, and either it is still in progress or it has the answer, and its files
have the content, that it would have if it were handled now. -/
theorem stepRequest_ok {r : Req} (hr : PlainReq r) {D d d' : Disk} (hD : Tidy D) {st st' : Stage} (ho : st.open? = true)
    (hm : Midway E L n boot readCode r D d st) (h : stepRequest E L n boot readCode r st d = some (st', d')) :
    (∀ p, ¬ Writes r p → d'.get? p = d.get? p) ∧ Midway E L n boot readCode r D d' st' ∧
    ∀ res, st' = .ended res → ∃ D', handle E L n boot readCode r none D = some (res, D') ∧ ∀ p, Writes r p → d'.get? p = D'.get? p := by
  cases st with
  | ended res => cases ho
  | come =>
    simp only [stepRequest] at h
    have hl : load d r.root r.name = load D r.root r.name := load_eq (hm _ (.inr rfl))
    split at h
    · rename_i hd
      cases h
      refine ⟨fun _ _ => rfl, trivial, fun res he => ?_⟩
      cases he
      exact ⟨D, by unfold handle; rw [hd], fun p hp => hm p (.inl hp)⟩
    · rename_i order hd
      split at h
      · rename_i hn
        cases h
        refine ⟨fun _ _ => rfl, trivial, fun res he => ?_⟩
        cases he
        exact ⟨D, by unfold handle; rw [hd]; dsimp only; rw [← hl, hn], fun p hp => hm p (.inl hp)⟩
      · rename_i id accts hn
        cases h
        rw [hl] at hn
        exact ⟨fun _ _ => rfl, ⟨hd, hn, (load_tidy hD (root_ne r) hr.plain hn).1, hm⟩, fun res he => by cases he⟩
  | read order id accts =>
    obtain ⟨h1, h2, rfl, h3⟩ := hm
    simp only [stepRequest] at h
    split at h
    · cases h
    · rename_i hp
      cases h
      refine ⟨fun _ _ => rfl, trivial, fun res he => ?_⟩
      cases he
      exact ⟨D, by unfold handle; rw [h1]; dsimp only; rw [h2]; dsimp only; rw [hp], fun p hp => h3 p (.inl hp)⟩
    · rename_i reply m hp
      by_cases hs : order.stores = true
      · rw [if_pos hs] at h
        cases h
        refine ⟨fun p hp => AMap.get?_insert_ne _ _ fun he => hp (.inl ⟨(digest_stores h1).1 hs, he.symm⟩), ?_, fun res he => by cases he⟩
        exact ⟨rfl, order, ⟨accts, h1, h2, hp⟩, hs⟩
      · rw [if_neg hs] at h
        cases h
        exact ⟨fun _ _ => rfl, ⟨order, m, ⟨accts, h1, h2, hp⟩, fun h => absurd h hs⟩, fun res he => by cases he⟩
  | world id reply m =>
    obtain ⟨rfl, order, hp, hs⟩ := hm
    simp only [stepRequest] at h
    cases h
    refine ⟨fun p hw => ?_, ⟨order, m, hp, fun _ => AMap.get?_insert_self ..⟩, fun res he => by cases he⟩
    obtain ⟨accts, h1, _⟩ := hp
    exact AMap.get?_insert_ne _ _ fun he => hw (.inl ⟨(digest_stores h1).1 hs, he.symm⟩)
  | kept reply =>
    obtain ⟨order, m, hp, hw⟩ := hm
    simp only [stepRequest] at h
    by_cases hn : r.outcome = []
    · rw [if_pos hn] at h
      cases h
      refine ⟨fun _ _ => rfl, trivial, fun res he => ?_⟩
      cases he
      obtain ⟨accts, h1, h2, h3⟩ := hp
      refine ⟨(writeBack r none order r.name reply m D).2, ?_, ?_⟩
      · unfold handle; rw [h1]; dsimp only; rw [h2]; dsimp only; rw [h3]; dsimp only
        unfold writeBack storeOutcome
        simp only [hn, if_true]
        split <;> rfl
      · rintro p (⟨hq, rfl⟩ | ⟨hn', _⟩)
        · have hs := (digest_stores h1).2 hq
          unfold writeBack storeOutcome
          simp only [hn, hs, if_true]
          rw [show worldFile (folderOf r) (nameOf r) = worldFile r.root r.name from rfl, hw hs]
          exact (AMap.get?_insert_self ..).symm
        · exact absurd hn hn'
    · rw [if_neg hn] at h
      cases h
      have hx : outcomeFile r.root r.outcome ≠ worldFile r.root r.name := outcome_not_world (root_ne r) (root_ne r) (hr.outcome hn).2 hr.plain.2
      refine ⟨fun p hp => AMap.get?_insert_ne _ _ fun he => hp (.inr ⟨hn, he.symm⟩), ?_, fun res he => by cases he⟩
      exact ⟨hn, order, m, hp, fun hs => by rw [AMap.get?_insert_ne _ _ hx]; exact hw hs⟩
  | outcome reply =>
    obtain ⟨hn, order, m, hp, hw⟩ := hm
    simp only [stepRequest] at h
    cases h
    have hx : outcomeFile r.root r.outcome ≠ worldFile r.root r.name := outcome_not_world (root_ne r) (root_ne r) (hr.outcome hn).2 hr.plain.2
    refine ⟨fun p hp => AMap.get?_insert_ne _ _ fun he => hp (.inr ⟨hn, he.symm⟩), trivial, fun res he => ?_⟩
    cases he
    obtain ⟨accts, h1, h2, h3⟩ := hp
    refine ⟨(writeBack r none order r.name reply m D).2, ?_, ?_⟩
    · unfold handle; rw [h1]; dsimp only; rw [h2]; dsimp only; rw [h3]; dsimp only
      unfold writeBack storeOutcome
      simp only [hn, if_false]
      split <;> rfl
    · rintro p (⟨hq, rfl⟩ | ⟨_, rfl⟩)
      · have hs := (digest_stores h1).2 hq
        unfold writeBack storeOutcome
        simp only [hn, hs, if_true, if_false]
        rw [show worldFile (folderOf r) (nameOf r) = worldFile r.root r.name from rfl, AMap.get?_insert_ne _ _ hx, AMap.get?_insert_ne _ _ hx, hw hs]
        exact (AMap.get?_insert_self ..).symm
      · unfold writeBack storeOutcome
        simp only [hn, if_false]
        split <;> exact (AMap.get?_insert_self ..).trans (AMap.get?_insert_self ..).symm

/-! ### The server -/

theorem history_snoc {r : Req} {stop : Option Stop} {res : Result} : ∀ {l : List (Req × Option Stop)} {d D D' : Disk} {rs : List Result},
    history E L n boot readCode l d = some (rs, D) → handle E L n boot readCode r stop D = some (res, D') →
    history E L n boot readCode (l ++ [(r, stop)]) d = some (rs ++ [res], D')
  | [], d, D, D', rs, h, hh => by
    cases h
    simp only [List.nil_append, history, hh, Option.map_some]
  | (x, st) :: l, d, D, D', rs, h, hh => by
    rw [history] at h
    rw [List.cons_append, history]
    cases hx : handle E L n boot readCode x st d with
    | none => rw [hx] at h; cases h
    | some q =>
      obtain ⟨res1, d1⟩ := q
      rw [hx] at h
      dsimp only at h ⊢
      cases ht : history E L n boot readCode l d1 with
      | none => rw [ht] at h; cases h
      | some q =>
        obtain ⟨rs1, d2⟩ := q
        rw [ht] at h
        simp only [Option.map_some, Option.some.injEq, Prod.mk.injEq] at h
        obtain ⟨rfl, rfl⟩ := h
        rw [history_snoc ht hh]
        rfl

/-- The server after some moves; `D` are the files that the answered requests would have left if they had been handled one after the
other. -/
structure Running (E : Env MockWorld A) (L : Lib) (n : Nat) (boot : MockWorld → St MockWorld A) (readCode : Bytes → Option Bytes)
    (d : Disk) (s : Server) (D : Disk) : Prop where
  turn : history E L n boot readCode (inTurn s) d = some (s.answered.map Prod.snd, D)
  tidy : Tidy D
  plain : ∀ t ∈ s.threads, PlainReq t.req
  idle : ∀ p, ¬ BeingWritten s p → s.disk.get? p = D.get? p
  midway : ∀ t ∈ s.threads, Midway E L n boot readCode t.req D s.disk t.stage

theorem running_comes {d : Disk} {s : Server} {D : Disk} (h : Running E L n boot readCode d s D) {r : Req} (hr : PlainReq r)
    (ha : AllOutOfTheWay { s with threads := s.threads ++ [{ req := r }] }) :
    Running E L n boot readCode d { s with threads := s.threads ++ [{ req := r }] } D := by
  refine ⟨h.turn, h.tidy, ?_, ?_, ?_⟩
  · intro t ht
    rcases List.mem_append.1 ht with ht | ht
    · exact h.plain t ht
    · rw [List.mem_singleton.1 ht]; exact hr
  · intro p hp
    exact h.idle p fun ⟨t, h1, h2⟩ => hp ⟨t, List.mem_append_left _ h1, h2⟩
  · intro t ht
    rcases List.mem_append.1 ht with ht | ht
    · exact h.midway t ht
    · rw [List.mem_singleton.1 ht]
      intro p hp
      refine h.idle p ?_
      rintro ⟨t', h1, h2, h3⟩
      obtain ⟨i, hi, he⟩ := List.mem_iff_getElem.1 h1
      refine apart_files (h.plain t' h1) hr (ha i s.threads.length t' { req := r } ?_ ?_ (Nat.ne_of_lt hi) h2 rfl) h3 hp
      · rw [List.getElem?_append_left hi, List.getElem?_eq_getElem hi, he]
      · rw [List.getElem?_append_right (Nat.le_refl _), Nat.sub_self]; rfl

theorem recordEnd_open {r : Req} {st : Stage} {l : List (Req × Result)} (h : st.open? = true) : recordEnd r st l = l := by
  cases st <;> first | rfl | cases h

theorem running_goes {d : Disk} {s s' : Server} {D : Disk} (h : Running E L n boot readCode d s D) (ha : AllOutOfTheWay s) {i : Nat}
    (hm : move E L n boot readCode s (.goes i) = some s') : ∃ D', Running E L n boot readCode d s' D' := by
  simp only [move] at hm
  split at hm
  · cases hm; exact ⟨D, h⟩
  · rename_i t hi
    by_cases ho : t.stage.open? = true
    case neg => rw [if_neg ho] at hm; cases hm; exact ⟨D, h⟩
    rw [if_pos ho] at hm
    cases hs : stepRequest E L n boot readCode t.req t.stage s.disk with
    | none => rw [hs] at hm; cases hm
    | some q =>
      obtain ⟨st', d'⟩ := q
      rw [hs] at hm
      cases hm
      have ht : t ∈ s.threads := List.mem_of_getElem? hi
      have hr := h.plain t ht
      obtain ⟨h1, h2, h3⟩ := stepRequest_ok hr h.tidy ho (h.midway t ht) hs
      have old : ∀ j, j ≠ i → (s.threads.set i { t with stage := st' })[j]? = s.threads[j]? := fun j hj =>
        List.getElem?_set_ne (Ne.symm hj)
      have new : (s.threads.set i { t with stage := st' })[i]? = some { t with stage := st' } := by
        have : i < s.threads.length := by
          rcases Nat.lt_or_ge i s.threads.length with h | h
          · exact h
          · rw [List.getElem?_eq_none h] at hi; cases hi
        rw [List.getElem?_set_self this]
      -- who is there afterwards
      have who : ∀ {x : Thread}, x ∈ s.threads.set i { t with stage := st' } → x = { t with stage := st' } ∨
          ∃ j, j ≠ i ∧ s.threads[j]? = some x := by
        intro x hx
        obtain ⟨j, hj⟩ := List.mem_iff_getElem?.1 hx
        by_cases he : j = i
        · subst he; rw [new] at hj; cases hj; exact .inl rfl
        · rw [old j he] at hj; exact .inr ⟨j, he, hj⟩
      have stay : ∀ {j : Nat} {x : Thread}, j ≠ i → s.threads[j]? = some x → x ∈ s.threads.set i { t with stage := st' } := fun {j x} hj hx =>
        List.mem_of_getElem? ((old j hj).trans hx)
      have away : ∀ {j : Nat} {x : Thread}, j ≠ i → s.threads[j]? = some x → x.stage.open? = true → ∀ {p : Path}, Touches x.req p → ¬ Writes t.req p :=
        fun {j x} hj hx hox {p} hp hw =>
          apart_files hr (h.plain x (List.mem_of_getElem? hx)) (ha i j t x hi hx (Ne.symm hj) ho hox) hw hp
      have plain : ∀ x ∈ s.threads.set i { t with stage := st' }, PlainReq x.req := by
        intro x hx
        rcases who hx with rfl | ⟨j, _, hx⟩
        · exact hr
        · exact h.plain x (List.mem_of_getElem? hx)
      by_cases hx : st'.open? = true
      · refine ⟨D, ?_, h.tidy, plain, ?_, ?_⟩
        · unfold inTurn; dsimp only; rw [recordEnd_open hx]; exact h.turn
        · intro p hp
          have hw : ¬ Writes t.req p := fun hw => hp ⟨_, List.mem_of_getElem? new, hx, hw⟩
          refine (h1 p hw).trans (h.idle p ?_)
          rintro ⟨x, hx1, hx2, hx3⟩
          obtain ⟨j, hj⟩ := List.mem_iff_getElem?.1 hx1
          by_cases he : j = i
          · subst he; rw [hi] at hj; cases hj; exact hw hx3
          · exact hp ⟨x, stay he hj, hx2, hx3⟩
        · intro x hx
          rcases who hx with rfl | ⟨j, hj, hx⟩
          · exact h2
          · by_cases hox : x.stage.open? = true
            · exact (h.midway x (List.mem_of_getElem? hx)).congr (fun _ _ => rfl) fun p hp => h1 p (away hj hx hox hp)
            · cases hst : x.stage with
              | ended res => trivial
              | _ => rw [hst] at hox; exact absurd rfl hox
      · cases st' with
        | ended res =>
          obtain ⟨D', h4, h5⟩ := h3 res rfl
          have h6 : ∀ p, ¬ Writes t.req p → D'.get? p = D.get? p := fun p hp => handle_writes h.tidy hr h4 hp
          refine ⟨D', ?_, c68_tidy hr h.tidy h4, plain, ?_, ?_⟩
          · have := history_snoc h.turn h4
            simpa [inTurn, recordEnd] using this
          · intro p hp
            by_cases hw : Writes t.req p
            · exact h5 p hw
            · refine (h1 p hw).trans ((h.idle p ?_).trans (h6 p hw).symm)
              rintro ⟨x, hx1, hx2, hx3⟩
              obtain ⟨j, hj⟩ := List.mem_iff_getElem?.1 hx1
              by_cases he : j = i
              · subst he; rw [hi] at hj; cases hj; exact hw hx3
              · exact hp ⟨x, stay he hj, hx2, hx3⟩
          · intro x hx
            rcases who hx with rfl | ⟨j, hj, hx⟩
            · trivial
            · by_cases hox : x.stage.open? = true
              · exact (h.midway x (List.mem_of_getElem? hx)).congr (fun p hp => h6 p (away hj hx hox hp)) fun p hp => h1 p (away hj hx hox hp)
              · cases hst : x.stage with
                | ended res => trivial
                | _ => rw [hst] at hox; exact absurd rfl hox
        | _ => exact absurd rfl hx

theorem running_moves {d : Disk} : ∀ {ms : List Move} {s s' : Server} {D : Disk}, Running E L n boot readCode d s D →
    (∀ r ∈ coming ms, PlainReq r) → NeverInTheWay E L n boot readCode ms s → moves E L n boot readCode ms s = some s' →
    ∃ D', Running E L n boot readCode d s' D'
  | [], s, s', D, h, _, _, hm => by cases hm; exact ⟨D, h⟩
  | x :: ms, s, s', D, h, hp, ha, hm => by
    rw [moves] at hm
    cases h1 : move E L n boot readCode s x with
    | none => rw [h1] at hm; cases hm
    | some s1 =>
      rw [h1] at hm
      have ha1 : NeverInTheWay E L n boot readCode ms s1 := fun k s2 hk => ha (k + 1) s2 (by
        rw [List.take_succ_cons, moves, h1]; exact hk)
      cases x with
      | comes r =>
        have h2 : AllOutOfTheWay s1 := ha1 0 s1 rfl
        cases h1
        exact running_moves (running_comes h (hp r List.mem_cons_self) h2) (fun r' hr' => hp r' (List.mem_cons_of_mem _ hr')) ha1 hm
      | goes i =>
        obtain ⟨D1, h2⟩ := running_goes h (ha 0 s rfl) h1
        exact running_moves (ms := ms) h2 hp ha1 hm

/-- Requests that come in parallel, in whatever order their steps are made: if those in progress never get in each other's way, each that
was answered got the answer that it would have got if they had been handled one after the other in the order in which they were answered,
and every file that no request in progress writes has the content that it would then have. -/
theorem c78_order_partial {d : Disk} (hd : Tidy d) {ms : List Move} (hp : ∀ r ∈ coming ms, PlainReq r)
    (ha : NeverInTheWay E L n boot readCode ms { disk := d }) {s : Server} (hm : moves E L n boot readCode ms { disk := d } = some s) :
    ∃ D, history E L n boot readCode (inTurn s) d = some (s.answered.map Prod.snd, D) ∧
      ∀ p, ¬ BeingWritten s p → s.disk.get? p = D.get? p := by
  have h0 : Running E L n boot readCode d { disk := d } d :=
    ⟨rfl, hd, (fun t ht => by cases ht), fun _ _ => rfl, (fun t ht => by cases ht)⟩
  obtain ⟨D, h⟩ := running_moves h0 hp ha hm
  exact ⟨D, h.turn, h.idle⟩

theorem move_threads {s s' : Server} {x : Move} (h : move E L n boot readCode s x = some s') :
    s'.threads.map Thread.req = s.threads.map Thread.req ++ coming [x] := by
  cases x with
  | comes r => cases h; simp [coming]
  | goes i =>
    simp only [move] at h
    split at h
    · cases h; simp [coming]
    · rename_i t hi
      split at h
      · cases hs : stepRequest E L n boot readCode t.req t.stage s.disk with
        | none => rw [hs] at h; cases h
        | some q =>
          rw [hs] at h
          cases h
          simp only [coming, List.append_nil]
          apply List.ext_getElem?
          intro j
          rw [List.getElem?_map, List.getElem?_map]
          by_cases hj : i = j
          · subst hj
            rw [List.getElem?_set]
            have : i < s.threads.length := by
              rcases Nat.lt_or_ge i s.threads.length with h | h
              · exact h
              · rw [List.getElem?_eq_none h] at hi; cases hi
            simp [this]
            rw [List.getElem?_eq_getElem this] at hi
            cases hi; rfl
          · rw [List.getElem?_set_ne hj]
      · cases h; simp [coming]

theorem coming_cons (x : Move) (ms : List Move) : coming (x :: ms) = coming [x] ++ coming ms := by
  cases x <;> rfl

theorem moves_threads : ∀ {ms : List Move} {s s' : Server}, moves E L n boot readCode ms s = some s' →
    s'.threads.map Thread.req = s.threads.map Thread.req ++ coming ms
  | [], s, s', h => by cases h; simp [coming]
  | x :: ms, s, s', h => by
    rw [moves] at h
    cases h1 : move E L n boot readCode s x with
    | none => rw [h1] at h; cases h
    | some s1 =>
      rw [h1] at h
      rw [moves_threads h, move_threads h1, coming_cons x ms, List.append_assoc]

theorem coming_take : ∀ (ms : List Move) (k : Nat), ∃ l, coming ms = coming (ms.take k) ++ l
  | [], _ => ⟨[], by simp [coming]⟩
  | x :: ms, 0 => ⟨_, rfl⟩
  | x :: ms, k + 1 => by
    obtain ⟨l, hl⟩ := coming_take ms k
    refine ⟨l, ?_⟩
    rw [coming_cons, hl, List.take_succ_cons, coming_cons x (ms.take k), List.append_assoc]

/-- Requests of which no two are for the same world, unless both are queries, and no two keep their outcome under the same name: each gets
the answer, and each file the content, as if they had been handled one after the other, however their steps are ordered. -/
theorem c78_apart {d : Disk} (hd : Tidy d) {ms : List Move} (hp : ∀ r ∈ coming ms, PlainReq r) (ha : (coming ms).Pairwise OutOfTheWay)
    {s : Server} (hm : moves E L n boot readCode ms { disk := d } = some s) :
    ∃ D, history E L n boot readCode (inTurn s) d = some (s.answered.map Prod.snd, D) ∧
      ∀ p, ¬ BeingWritten s p → s.disk.get? p = D.get? p := by
  refine c78_order_partial hd hp ?_ hm
  intro k s' hk
  have ht := moves_threads hk
  rw [List.map_nil, List.nil_append] at ht
  obtain ⟨l, hl⟩ := coming_take ms k
  have hw : (s'.threads.map Thread.req).Pairwise OutOfTheWay := by
    rw [ht]; rw [hl] at ha; exact (List.pairwise_append.1 ha).1
  have lt : ∀ (i j : Nat) (t t' : Thread), s'.threads[i]? = some t → s'.threads[j]? = some t' → i < j → OutOfTheWay t.req t'.req := by
    intro i j t t' hi hj hij
    obtain ⟨hil, rfl⟩ := List.getElem?_eq_some_iff.1 hi
    obtain ⟨hjl, rfl⟩ := List.getElem?_eq_some_iff.1 hj
    have := List.pairwise_iff_getElem.1 hw i j (by simpa using hil) (by simpa using hjl) hij
    simpa using this
  intro i j t t' hi hj hij _ _
  rcases Nat.lt_or_gt_of_ne hij with h | h
  · exact lt i j t t' hi hj h
  · exact outOfTheWay_symm (lt j i t' t hj hi h)

end

/-! ### Two requests at the same time -/

section
open Fixture

def bob : Addr := List.replicate 32 98

/-- an account for bob, with 5 -/
def makeBob : Req := { act := .createAccount (hexEncode bob) [53] 0 }

/-- the same in another world, the outcome being kept under this name -/
def bobElsewhere (outcome : Bytes) : Req := { act := .createAccount (hexEncode bob) [53] 0, world := [120], outcome := outcome }

/-- moves on an empty folder -/
def served (ms : List Move) : Option Server := moves debugEnv stillLib 5 mockHost (fun _ => none) ms { disk := AMap.empty }

def isDone : Result → Bool
  | .done _ => true
  | _ => false

/-- the balances of alice and bob in a world -/
def balancesIn (d : Disk) (name : Bytes) : Option (Option Int × Option Int) :=
  (found d defaultRoot name).map fun m => ((m.get? alice).map WAcc.balance, (m.get? bob).map WAcc.balance)

/-- the steps of two requests by turns: of the first where there is a zero -/
def byTurns (r r' : Req) (l : List Nat) : List Move := .comes r :: .comes r' :: l.map .goes

/-- `OutOfTheWay` of two requests, and two requests that are apart -/
example : OutOfTheWay makeAlice (bobElsewhere []) ∧ OutOfTheWay (queryAlices f) (queryAlices g) ∧ ¬ OutOfTheWay makeAlice makeBob := by
  refine ⟨⟨fun h => absurd h.2 (by decide), fun h => h.2.2 rfl⟩, ⟨fun _ => ⟨⟨_, _, _, rfl⟩, ⟨_, _, _, rfl⟩⟩, fun h => h.2.2 rfl⟩, fun h => ?_⟩
  obtain ⟨⟨_, _, _, h⟩, _⟩ := h.1 ⟨rfl, rfl⟩
  cases h

/-- requests to two worlds by turns: both are answered, and both worlds are as if there had been no other -/
example : (served (byTurns makeAlice (bobElsewhere [121]) [0, 1, 1, 0, 0, 1, 1, 0, 1])).map (fun s =>
    (s.answered.map (fun x => isDone x.2), [balancesIn s.disk defaultWorld, balancesIn s.disk [120]])) =
    some ([true, true], [some (some 10, none), some (none, some 5)]) := by decide +kernel

/-- these requests meet the conditions of the theorems -/
example (l : List Nat) : ∀ r ∈ coming (byTurns makeAlice (bobElsewhere [121]) l), PlainReq r := by
  have hn : ∀ l : List Nat, coming (l.map Move.goes) = [] := fun l => by induction l with
    | nil => rfl
    | cons _ _ ih => exact ih
  intro r hr
  simp only [byTurns, coming, hn, List.mem_cons, List.not_mem_nil, or_false] at hr
  rcases hr with rfl | rfl
  · exact ⟨plain_default, fun h => absurd rfl h⟩
  · exact ⟨⟨by decide +kernel, by decide⟩, fun _ => ⟨by decide +kernel, by decide⟩⟩

/-- in this server a request is in progress -/
example : (served (byTurns makeAlice (bobElsewhere []) [0, 1, 1, 0, 1, 1])).map (fun s => s.threads.map fun t => t.stage.open?) =
    some [true, false] := by decide +kernel

/-- Requests that change the same world at the same time: both are answered, both accounts are reported as made, and one is not there. In
whichever order they are handled one after the other, both are there. -/
theorem c78_lost_neg :
    (served (byTurns makeAlice makeBob [0, 1, 0, 0, 0, 1, 1, 1])).map (fun s =>
      (s.answered.map (fun x => isDone x.2), balancesIn s.disk defaultWorld)) = some ([true, true], some (none, some 5)) ∧
    (session [makeAlice, makeBob]).map (fun x => balancesIn x.2 defaultWorld) = some (some (some 10, some 5)) ∧
    (session [makeBob, makeAlice]).map (fun x => balancesIn x.2 defaultWorld) = some (some (some 10, some 5)) := by
  refine ⟨?_, ?_, ?_⟩ <;> decide +kernel

def isUnreadable : Result → Bool
  | .unreadable => true
  | _ => false

/-- A query that comes while another request writes its world finds the file empty, and is answered with an error. Before, and after, it is
not. -/
theorem c78_torn_neg :
    (served (byTurns makeAlice (queryAlices f) [0, 0, 1, 0, 0])).map (fun s => s.answered.map fun x => (isUnreadable x.2, isDone x.2)) =
      some [(true, false), (false, true)] ∧
    (session [makeAlice, queryAlices f]).map (fun x => x.1.map isUnreadable) = some [false, false] ∧
    (session [queryAlices f, makeAlice]).map (fun x => x.1.map isUnreadable) = some [false, false] := by
  refine ⟨?_, ?_, ?_⟩ <;> decide +kernel

end

end Arwen.Props
