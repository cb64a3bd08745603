import Verif.Proof.AgreeRun
import Verif.Proof.Driver
import Verif.Spec.Undisturbed
import Verif.Spec.Activity
import Verif.Props.C65

/-! # C81: builds with and without checks for overflow show the same -/

namespace Metrix
variable {σ L : Type} {e : Env} {k k' : Nat}

theorem agr_history {C A : Type} [Component C A] (hstep : ∀ (c : C) (op : Op A), M.Agr (step c op)) {c c' : C}
    {log : List (Event A)} (h : History e k c log k' c') : History e.unchecked k c log k' c' := by
  induction h with
  | nil hk => exact .nil hk
  | cons hk hs _ ih => exact .cons hk ((hstep _ _).same hs) ih

theorem agr_step {C A : Type} [Component C A] (ht : ∀ (c : C) (a : A), M.Agr (Component.take c a))
    (hp : ∀ (c : C) (s : Snapshot) (d : Bool), M.Agr (Component.putSnapshot (A := A) c s d)) (c : C) (op : Op A) : M.Agr (step c op) := by
  cases op with
  | input a => exact .bind (ht c a) fun _ => .pure _
  | snapshot s d => exact .bind (hp c s d) fun _ => .pure _

variable [Custom σ L]

/-- An instrument: what happens with checks happens in the same way without. -/
theorem C81_instrument (hc : CustomAgrees σ L) {i i' : BoxedInstrument σ L} {log : List (Event Update)}
    (h : History e k i log k' i') : History e.unchecked k i log k' i' :=
  agr_history (agr_step (fun i u => .bind (i.instrument.agr_update hc u) fun _ => .pure _)
    fun i s d => .bind (i.instrument.agr_putSnapshot hc s d) fun _ => .pure _) h

variable [DecidableEq L]

/-- The same for panels, cockpits and other handlers of observations. -/
theorem C81_handlers (hc : CustomAgrees σ L) {log : List (Event (Observation L))} :
    (∀ p p' : Panel σ L, History e k p log k' p' → History e.unchecked k p log k' p') ∧
    (∀ c c' : Cockpit σ L, History e k c log k' c' → History e.unchecked k c log k' c') ∧
    (∀ x x' : Handler σ L, History e k x log k' x' → History e.unchecked k x log k' x') :=
  ⟨fun _ _ h => agr_history (agr_step (fun p o => p.agr_handle hc o) fun p s d => p.agr_putSnapshot hc d s) h,
    fun _ _ h => agr_history (agr_step (fun c o => c.agr_handle hc o) fun c s d => c.agr_putSnapshot hc s d) h,
    fun _ _ h => agr_history (agr_step (fun x o => x.agr_handle hc o) fun x s d => x.agr_putSnapshot hc d s) h⟩

/-- The same for processors, with all their calls. -/
theorem C81_processor (hc : CustomAgrees σ L) {p p' : Processor σ L} {log : List (Called σ L)} (h : Life e k p log k' p') :
    Life e.unchecked k p log k' p' := by
  induction h with
  | nil hk => exact .nil hk
  | @cons k k₁ k₂ k' p p₁ p' c r log hk hs _ ih =>
    refine .cons hk (M.Agr.same ?_ hs) ih
    cases c with
    | process max strategy => exact .bind (p.agr_process hc max strategy) fun _ => .pure _
    | snapshot into d => exact .bind (.bind (ProcessorState.agr_putSnapshot hc _ _ _) fun _ => .pure _) fun _ => .pure _
    | _ => exact .pure _

variable [CustomProcessor σ]

/-- The same for mounts and everything else that can be mounted. -/
theorem C81_mount (hc : CustomAgrees σ L) (hp : CustomProcessorAgrees σ) {n n' : Node σ L} {log : List (Event Run)}
    (h : History e k n log k' n') : History e.unchecked k n log k' n' :=
  agr_history (agr_step (fun n _ => .bind (n.agr_process hc hp _ _) fun _ => .pure _) fun n s d => n.agr_putSnapshot hc hp d s) h

omit [Custom σ L] [DecidableEq L] [CustomProcessor σ] in
/-- The creation of a driver. -/
theorem C81_new_driver {name : Option String} {descr : Descr} {strategy : Strategy} {withMetrics : Bool}
    {programs : List (SendThread (DriverMsg σ L))} {t : DriverThread σ L}
    (h : NewDriver e k name descr strategy withMetrics programs t) :
    NewDriver e.unchecked k name descr strategy withMetrics programs t := by
  obtain ⟨k₀, state, ahead, blind, hn, ht⟩ := h.created
  exact ⟨k₀, state, ahead, blind, (LoopState.agr_new name descr strategy withMetrics).same hn, ht⟩

theorem ended_life {c : Channel (DriverMsg σ L)} {log : List (Iteration σ L)} {t' : DriverThread σ L}
    (h : DriverLife e k (.ended c) log k' t') : log = [] ∧ ¬ t'.Runs := by
  generalize ht : DriverThread.ended c = t at h
  induction h generalizing c with
  | nil => subst ht; exact ⟨rfl, fun ⟨_, h⟩ => by cases h⟩
  | iteration _ hi => subst ht; simp [DriverThread.iterate] at hi
  | over _ hi _ ih =>
    subst ht
    simp only [DriverThread.iterate, Prod.mk.injEq] at hi
    exact ih hi.1
  | others _ ih => exact ih rfl

/-- The thread of a driver: with checks it does the same as without, up to the first panic, if there is any. -/
theorem C81_driver (hc : CustomAgrees σ L) (hp : CustomProcessorAgrees σ) {t t' : DriverThread σ L} {log : List (Iteration σ L)}
    (h : DriverLife e k t log k' t') :
    ∃ log₁ k₁ t₁, DriverLife e.unchecked k t log₁ k₁ t₁ ∧ (log₁ = log ∧ k₁ = k' ∧ t₁ = t' ∨
      ¬ t'.Runs ∧ ∃ last k₂ k₃ c, k₁ ≤ k₂ ∧ t₁.iterate e k₂ = (.ended c, some last, k₃) ∧ log = log₁ ++ [last]) := by
  induction h with
  | nil hk => exact ⟨[], _, _, .nil hk, .inl ⟨rfl, rfl, rfl⟩⟩
  | @iteration k k₁ k₂ k' t t₁ t' i log hk hi hl ih =>
    cases t with
    | ended c => simp [DriverThread.iterate] at hi
    | running l =>
      have panicked : (∃ c, t₁ = .ended c) → ∃ log₁ k₁ t₁, DriverLife e.unchecked k (.running l) log₁ k₁ t₁ ∧
          (log₁ = i :: log ∧ k₁ = k' ∧ t₁ = t' ∨
            ¬ t'.Runs ∧ ∃ last k₂ k₃ c, k₁ ≤ k₂ ∧ t₁.iterate e k₂ = (.ended c, some last, k₃) ∧ i :: log = log₁ ++ [last]) := by
        rintro ⟨c, rfl⟩
        obtain ⟨rfl, hr⟩ := ended_life hl
        exact ⟨[], k, _, .nil (Nat.le_refl _), .inr ⟨hr, i, k₁, k₂, c, hk, hi, rfl⟩⟩
      have hi' := hi
      generalize hj : some i = j at hi'
      cases iterates hi' with
      | stop => cases hj
      | panicEarly => exact panicked ⟨_, rfl⟩
      | panicLate => exact panicked ⟨_, rfl⟩
      | @done r m s started answer k₃ s' outcome rest _ hpoll hb hw =>
        cases hj
        have hb' := (LoopState.agr_begin hc hp _ _).same hb
        have hw' := (LoopState.agr_work hc hp _ _).same hw
        have hi'' : (DriverThread.running l).iterate e.unchecked k₁ =
            (.running ⟨s', r, l.blind.tail⟩, some { message := m, answer, outcome, rest }, k₂) := by
          simp only [DriverThread.iterate, hpoll, hb', hw']
        obtain ⟨log₁, k₃, t₁, h1, h2⟩ := ih
        refine ⟨_, k₃, t₁, .iteration hk hi'' h1, ?_⟩
        rcases h2 with ⟨rfl, rfl, rfl⟩ | ⟨hr, last, k₄, k₅, c, h3, h4, rfl⟩
        · exact .inl ⟨rfl, rfl, rfl⟩
        · exact .inr ⟨hr, last, k₄, k₅, c, h3, h4, rfl⟩
  | @over k k₁ k₂ k' t t₁ t' log hk hi hl ih =>
    have hi'' : t.iterate e.unchecked k₁ = (t₁, none, k₂) := by
      cases t with
      | ended c => exact hi
      | running l =>
        generalize hj : none = j at hi
        cases iterates hi with
        | stop hpoll => simp only [DriverThread.iterate, hpoll]
        | panicEarly => cases hj
        | panicLate => cases hj
        | done => cases hj
    obtain ⟨log₁, k₃, t₁, h1, h2⟩ := ih
    exact ⟨log₁, k₃, t₁, .over hk hi'' h1, h2⟩
  | others _ ih =>
    obtain ⟨log₁, k₃, t₁, h1, h2⟩ := ih
    exact ⟨log₁, k₃, t₁, .others h1, h2⟩

/-- In particular: as long as the thread of a driver runs with checks, it does exactly the same without. -/
theorem C81_running_driver (hc : CustomAgrees σ L) (hp : CustomProcessorAgrees σ) {t t' : DriverThread σ L}
    {log : List (Iteration σ L)} (h : DriverLife e k t log k' t') (hrun : t'.Runs) : DriverLife e.unchecked k t log k' t' := by
  obtain ⟨log₁, k₁, t₁, h1, ⟨rfl, rfl, rfl⟩ | ⟨hr, -⟩⟩ := C81_driver hc hp h
  · exact h1
  · exact absurd hrun hr

omit [CustomProcessor σ] in
/-- What panics without checks panics with checks, too: a panel with any sequence of observations and snapshots. -/
theorem C81_panics (hc : CustomAgrees σ L) (p : Panel σ L) (ops : List (Op (Observation L)))
    (h : runOps p ops e.unchecked k = none) : runOps p ops e k = none := by
  have key : ∀ (ops : List (Op (Observation L))) (p : Panel σ L), M.Agr (runOps p ops) := by
    intro ops
    induction ops with
    | nil => exact fun p => .pure _
    | cons op ops ih =>
      exact fun p => .bind (agr_step (fun p o => p.agr_handle hc o) (fun p s d => p.agr_putSnapshot hc d s) p op) fun _ =>
        .bind (ih _) fun _ => .pure _
  cases hr : runOps p ops e k with
  | none => rfl
  | some r => rw [(key ops p).same hr] at h; cases h

/-! ## Examples -/

/-- A build with checks. -/
def checked : Env := { ticking with profile := .debug }

example : checked.profile = .debug ∧ checked.unchecked = ticking := ⟨rfl, rfl⟩

theorem emptyAgrees : CustomAgrees Empty Nat := ⟨fun s => s.elim, fun s => s.elim, fun s => s.elim⟩

theorem emptyProcessorAgrees : CustomProcessorAgrees Empty := ⟨fun s => s.elim, fun s => s.elim⟩

/-- A driver that still runs after five iterations. -/
example : DriverLife checked 2 deliveryDriver (deliveryDriver.iterations 5 checked 2).1 (deliveryDriver.iterations 5 checked 2).2.1
      (deliveryDriver.iterations 5 checked 2).2.2 ∧
    (match (deliveryDriver.iterations 5 checked 2).2.2 with | .running _ => true | .ended _ => false) = true ∧
    ((deliveryDriver.iterations 5 checked 2).1.map fun i => (addedProcessors i.message.toList).length) = [0, 0, 1, 0, 0] :=
  ⟨.ofIterations 5 deliveryDriver checked 2, by decide +kernel, by decide +kernel⟩

/-- The checks do make a difference: a counter at its limit panics with checks and starts again from 0 without. -/
example : (Counter.update { name := "c", count := 18446744073709551615 } (.observation 0)) checked 0 = none ∧
    ((Counter.update { name := "c", count := 18446744073709551615 } (.observation 0)) checked.unchecked 0).map (·.1.1.count) = some 0 := by
  decide +kernel

end Metrix
