import Verif.Spec.Launch
import Verif.Props.DebugText
/-
C77: the Arwen process gets the settings of the node and runs with them. The settings arrive, but for the built-in functions, without
which no process can run.
-/
namespace Arwen.Props
open Arwen.Spec Arwen.Ipc Arwen.Debug
variable {W H : Type}

/-- **C77 (settings).** Settings that can be written and read arrive as they were, but for the built-in functions. -/
theorem c77_settings_partial (a sent b : Settings) (ht : TextSchedule a.gas) (hs : sendSettings a = some sent) (hg : getSettings sent = some b) :
    SameSettings a b := by
  have key : ∀ k, (rereadMap (rereadMap id) a.gas).get? k = (a.gas.get? k).map (rereadMap id) :=
    reread_text _ _ ht.group
  have price : ∀ k o, priceIn (rereadMap (rereadMap id) a.gas) k o = priceIn a.gas k o := by
    intro k o
    unfold priceIn
    rw [key]
    cases h : a.gas.get? k with
    | none => rfl
    | some m =>
      show (rereadMap id m).get? o = m.get? o
      rw [reread_text id m (fun o' p h' => ht.operation k m o' p h h')]
      cases m.get? o <;> rfl
  have hsome : ∀ k, ((rereadMap (rereadMap id) a.gas).get? k).isSome = (a.gas.get? k).isSome := by
    intro k
    rw [key]
    cases a.gas.get? k <;> rfl
  unfold getSettings at hg
  split at hg
  · rename_i hn
    cases hg
    unfold sendSettings at hs
    split at hs
    · cases hs
    all_goals cases hs; exact ⟨rfl, rfl, hsome, price, rfl, rfl, rfl, rfl, rfl, rfl, rfl, rfl, rfl⟩
  · cases hg

/-- **C77 (reading).** Settings are read by the process exactly if the container of built-in functions is nil or written as `null`. -/
theorem c77_read (a : Settings) : (∃ sent b, sendSettings a = some sent ∧ getSettings sent = some b) ↔
    a.builtins = none ∨ a.builtins = some .null := by
  unfold sendSettings getSettings
  constructor
  · rintro ⟨sent, b, h1, h2⟩
    cases h : a.builtins with
    | none => exact .inl rfl
    | some w =>
      rw [h] at h1
      cases w with
      | error => cases h1
      | null => exact .inr rfl
      | value => cases h1; cases h2
  · rintro (h | h) <;> rw [h] <;> exact ⟨_, _, rfl, rfl⟩

/-- **C77 (start).** How far a process gets: it panics if the settings have no container of built-in functions and the part for the logs
works, and exits in all other cases. -/
theorem c77_start (logs : Bool) (a sent : Settings) (h : sendSettings a = some sent) :
    (arwenMain logs sent = .panics ↔ logs = true ∧ (a.builtins = none ∨ a.builtins = some .null)) ∧
    (arwenMain logs sent = .exits ↔ logs = false ∨ a.builtins = some .value) := by
  unfold sendSettings at h
  unfold arwenMain getSettings
  cases hb : a.builtins with
  | none => rw [hb] at h; cases h; cases logs <;> simp
  | some w =>
    rw [hb] at h
    cases w <;> cases h <;> cases logs <;> simp

/-- **No process ever runs.** Whatever the settings are: a container of built-in functions cannot be read, and without one the
process panics. -/
theorem c77_neg (logs : Bool) (a sent : Settings) (h : sendSettings a = some sent) (b : Settings) : arwenMain logs sent ≠ .runs b := by
  unfold arwenMain getSettings
  intro e
  split at e
  · cases e
  · rename_i c hc
    split at e
    · cases e
    · split at hc
      · cases hc; cases e
      · cases hc

theorem run_gone {R : Type} (N : Node W) (p : IProg R) (s : Sys W) : runIpcUntil N p (some 0) s = (.failed .arwenGone, s) := by
  cases p <;> simp [runIpcUntil]

theorem loop_gone (N : Node W) (vm : Machine H) (m : Msg) (s : Sys W) (h : H) : (startLoopUntil N vm (some 0) m s h).1 = .error .arwenGone := by
  unfold startLoopUntil
  dsimp only
  split
  · rfl
  · split
    · rfl
    · rw [run_gone]

theorem converse_gone (N : Node W) (vm : Machine H) (m : Msg) (d : Driver W H) : (converse N vm (some 0) m d).1 = .error .arwenGone := by
  unfold converse
  split
  · exact loop_gone ..
  · rfl

theorem failed_silent (e : LoopErr) (op : Op) : NoAnswer (op.failed e) := by
  cases op <;> first | exact trivial | rfl

theorem op_silent (N : Node W) (vm : Machine H) (boot : GasTable → H) (f : Faults) (hf : f.crash = some 0) (op : Op) (d : Driver W H) :
    NoAnswer (d.step N vm boot f op).1 := by
  have go : ∀ (d : Driver W H), NoAnswer (d.goOn N vm f.crash op).1 := by
    intro d
    rw [hf]
    unfold Driver.goOn
    have h := converse_gone N vm op.request d
    split
    · exact trivial
    · rename_i h2
      split
      · exact trivial
      · exact failed_silent _ _
    · rename_i h2; rw [h2] at h; cases h
  unfold Driver.step
  dsimp only
  cases op with
  | close => dsimp only; split <;> exact trivial
  | _ =>
    dsimp only
    split
    · exact trivial
    · first | exact trivial | exact rfl
    · exact go _

/-- **No request is ever answered.** The driver is made without an error, but whatever the node asks of it, for however long, it gets
critical errors, no version and no results: none of the processes that the driver starts, with whatever settings, runs. -/
theorem c77_silent_neg (N : Node W) (vm : Machine H) (boot : GasTable → H) (hist : List (Launched × Faults × Op))
    (hl : ∀ p ∈ hist, ∃ logs a sent, sendSettings a = some sent ∧ p.1 = arwenMain logs sent) (g : GasTable) (w : W) :
    ∀ r ∈ ((newDriver N boot g w).history N vm boot (hist.map fun p => (p.1.faults p.2.1, p.2.2))).1, NoAnswer r := by
  generalize newDriver N boot g w = d
  induction hist generalizing d with
  | nil => intro r h; cases h
  | cons p rest ih =>
    intro r hr
    have hc : (p.1.faults p.2.1).crash = some 0 := by
      obtain ⟨logs, a, sent, h1, h2⟩ := hl p List.mem_cons_self
      have h3 := c77_neg logs a sent h1
      rw [h2]
      unfold Launched.faults
      split
      · rename_i b hb; exact absurd hb (h3 b)
      · rfl
    have h1 := op_silent N vm boot (p.1.faults p.2.1) hc p.2.2 d
    rw [List.map_cons] at hr
    unfold Driver.history at hr
    dsimp only at hr
    split at hr
    · rw [List.mem_singleton.1 hr]; exact trivial
    · rename_i h2
      rw [h2] at h1
      rcases List.mem_cons.1 hr with rfl | hr
      · exact h1
      · exact ih (fun q hq => hl q (List.mem_cons_of_mem _ hq)) _ r hr

/-! ### Examples -/

/-- the settings of a node, with a container as it is written -/
def nodeSettings (builtins : Option Written) : Settings :=
  { vmType := [5, 0], blockGasLimit := 10000000, gas := AMap.empty.insert [65] ((AMap.empty.insert [66] 7).insert [67] 8),
    builtins := builtins, protectedPrefix := [69], v3Epoch := 3, messages := 1 }

-- what arrives of settings without a container
example : ((sendSettings (nodeSettings none)).bind getSettings).map
      (fun b => ((b.vmType, b.blockGasLimit, b.v3Epoch, b.messages), [priceIn b.gas [65] [66], priceIn b.gas [65] [67], priceIn b.gas [66] [65]])) =
    some (([5, 0], 10000000, 3, 1), [some 7, some 8, none]) := by decide +kernel

-- settings with a container are sent, but not read; without one they are read, but the process panics
example : (sendSettings (nodeSettings (some .value))).map (arwenMain true) = some .exits ∧
    (sendSettings (nodeSettings none)).map (arwenMain true) = some .panics := ⟨rfl, rfl⟩

-- a driver that is asked for calls, whose process has panicked at once
example (N : Node W) (vm : Machine H) (boot : GasTable → H) (w : W) (i : CallInput) :
    ((newDriver N boot [] w).history N vm boot ([(.panics, { dies := true }, .call i), (.panics, { start := .early }, .version),
      (.panics, { start := .early }, .create default)].map fun (p : Launched × Faults × Op) => (p.1.faults p.2.1, p.2.2))).1 =
    [.ran (.critical .arwenGone), .version [], .ran (.critical .arwenGone)] := rfl

theorem letter_text (b : UInt8) (h : b.toNat < 128) : IsText [b] := by
  refine ⟨[Char.ofNat b.toNat], ?_⟩
  have : ∀ n : Fin 128, [UInt8.ofNat n.val] = ([Char.ofNat n.val] : List Char).flatMap String.utf8EncodeChar := by decide
  have := this ⟨b.toNat, h⟩
  simpa using this

-- its schedule has texts as names
example : TextSchedule (nodeSettings none).gas := by
  constructor
  · intro k m h
    simp only [nodeSettings, AMap.get?_insert] at h
    split at h
    · rename_i e; subst e; exact letter_text 65 (by decide)
    · cases h
  · intro k m o p h ho
    simp only [nodeSettings, AMap.get?_insert] at h
    split at h
    · cases h
      simp only [AMap.get?_insert] at ho
      split at ho
      · rename_i e; subst e; exact letter_text 67 (by decide)
      · split at ho
        · rename_i e; subst e; exact letter_text 66 (by decide)
        · cases ho
    · cases h

end Arwen.Props
