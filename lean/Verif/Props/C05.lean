import Verif.Proof.Processing
import Verif.Props.C18
import Verif.Props.C25

/-! # C05: the staleness rule -/

namespace Metrix
variable {σ L : Type} [DecidableEq L] [Custom σ L]

omit [DecidableEq L] [Custom σ L] in
/-- What the strategies mean, in a run that started at `start`. -/
theorem C05_rule (start : Int) (o : Observation L) :
    (Strategy.processAll.Keeps start o ↔ True) ∧ (Strategy.dropAll.Keeps start o ↔ False) ∧
    (∀ (maxAge : Nat) (dropDeltas : Bool), (Strategy.dropOlderThan maxAge dropDeltas).Keeps start o ↔
      start - o.madeAt ≤ maxAge ∨ (∃ l d t, o = .observedOneValue l (.changedBy d) t) ∧ dropDeltas = false) :=
  ⟨Iff.rfl, Iff.rfl, fun _ _ => Iff.rfl⟩

/-- Each observation consumed by a run is processed if the rule says so, and is dropped if not. The start of the run is
the first clock reading in it. -/
theorem C05_run {p p' : Processor σ L} {max : Nat} {strategy : Strategy} {out : Outcome} {e : Env} {k k' : Nat}
    (h : p.process max strategy e k = some ((p', out), k')) :
    ∃ ms k₂ k₃ s₁, Took p.receiver.chan p'.receiver.chan (ms.map (·.1)) ∧ out.Accounts ms ∧
      Applies e (strategy.Keeps (e.clock k)) k₂ p.state ms k₃ s₁ ∧
      ∀ o v, (Message.observation o, v) ∈ ms → (v.isDropped = false ↔ strategy.Keeps (e.clock k) o) := by
  obtain ⟨ms, k₂, k₃, s₁, _, _, _, happ, hacc, _, ht, _⟩ := process_spec h
  refine ⟨ms, k₂, k₃, s₁, ht, hacc, happ, ?_⟩
  intro o v hm
  have := applies_verdict happ hm
  cases hv : v.isDropped <;> simp [hv] at this ⊢ <;> exact this

omit [DecidableEq L] [Custom σ L] in
/-- The decision on a single observation. The clock is read once for each run that looks at ages. -/
theorem C05_decision {strategy : Strategy} {d : Decider} {e : Env} {k k' : Nat} (h : strategy.decider e k = some (d, k'))
    (o : Observation L) : d.shouldBeProcessed o = true ↔ strategy.Keeps (e.clock k) o := (decider_spec h).2 o

omit [DecidableEq L] [Custom σ L] in
/-- Observations from the future are never too old. -/
theorem C05_future (start : Int) (maxAge : Nat) (dropDeltas : Bool) (o : Observation L) (h : start ≤ o.madeAt) :
    (Strategy.dropOlderThan maxAge dropDeltas).Keeps start o := .inl (by omega)

/-! ## Examples -/

/-- An old observation, a fresh one, an old change of a value; another old one. -/
def exampleMessages : List (Message Empty Nat) :=
  [.observation (.observedOne 1 (-60000000000)), .observation (.observedOne 2 0),
   .observation (.observedOneValue 1 (.changedBy 5) (-60000000000)), .observation (.observedOne 2 (-60000000000))]

/-- Two handlers (the tree of C18 and a gauge for changes), one thread that sends. -/
def exampleProcessor : Processor Empty Nat where
  state := { activity := ⟨0, none, true⟩,
             handlers := [.panel exampleTree, .gauge (.deltasOnly .acceptAll { name := "g" })] }
  receiver := { chan := .fresh (some 10) true [{ todo := exampleMessages }], ahead := [[0, 0], [], [0], [0], [0]] }

/-- With the default strategy two of the four are dropped. -/
example : (exampleProcessor.process 4 .default ticking 1).map (·.1.2) = some ⟨2, 2, 4, 0⟩ := rfl

example : (exampleProcessor.process 10 (.dropOlderThan 30000000000 true) ticking 1).map (·.1.2) = some ⟨1, 3, 2, 0⟩ := rfl

example : (exampleProcessor.process 10 .processAll ticking 1).map (·.1.2) = some ⟨4, 0, 7, 0⟩ := rfl

example : (exampleProcessor.process 3 .dropAll ticking 1).map (·.1.2) = some ⟨0, 3, 0, 1⟩ := rfl

example := C05_run (p := exampleProcessor) (max := 4) (strategy := .default) (e := ticking) (k := 1) rfl
example := C05_decision (strategy := .dropOlderThan 30000000000 true) (e := ticking) (k := 1) rfl (.observedOne 1 (-60000000000))
example := C05_future 0 30000000000 true (.observedOne 1 5) (by decide)

/-- What comes out if a processor is used by the given calls, without pauses. -/
def lived (e : Env) : Nat → Processor σ L → List (Call σ L) → Option (List (Called σ L) × Nat × Processor σ L)
  | k, p, [] => some ([], k, p)
  | k, p, c :: cs => do
    let ((p₁, r), k₁) ← p.call c e k
    let (log, k', p') ← lived e k₁ p₁ cs
    return (⟨k, c, r⟩ :: log, k', p')

theorem lived_life {e : Env} {k k' : Nat} {p p' : Processor σ L} {cs : List (Call σ L)} {log : List (Called σ L)}
    (h : lived e k p cs = some (log, k', p')) : Life e k p log k' p' := by
  induction cs generalizing k p log with
  | nil => simp only [lived, Option.some.injEq, Prod.mk.injEq] at h; obtain ⟨rfl, rfl, rfl⟩ := h; exact .nil (Nat.le_refl _)
  | cons c cs ih =>
    simp only [lived, Option.bind_eq_bind, Option.bind_eq_some_iff, Option.pure_def, Option.some.injEq, Prod.mk.injEq] at h
    obtain ⟨⟨⟨p₁, r⟩, k₁⟩, h1, ⟨log', k'', p''⟩, h2, rfl, rfl, rfl⟩ := h
    exact .cons (Nat.le_refl _) h1 (ih h2)

/-- Two runs, with a snapshot in between. -/
def exampleCalls : List (Call Empty Nat) := [.process 3 .default, .snapshot [] true, .process 5 .default]

example : (lived ticking 1 exampleProcessor exampleCalls).map (fun x => x.1.length) = some 3 := rfl

end Metrix
