import Verif.Props.C48

/-!
# C49 Panel inactivity

The property does not hold: `Panel::handle_observation` does not touch `last_update` (`src/instruments/panel.rs:348-375`).
So a panel with an inactivity limit becomes inactive for good when the limit has passed since it was made, no matter what it
observes: `C49_violated` is an example, `C49_partial` the general rule.
-/

namespace Metrix
variable {σ L : Type} [DecidableEq L] [Custom σ L]

/-- What is left of the property: the values are shown as long as the limit has not passed since the panel was made. This
also says when they are not shown: always when the limit has passed. What is missing is the influence of the
observations, which the code does not have. -/
theorem C49_partial {e : Env} {k k' : Nat} {p p' : Panel σ L} {log : List (Event (Observation L))}
    (h : History e k p log k' p') {limit : Nat} (hl : p.head.activity.maxInactivity = some limit)
    (hs : p.head.activity.show_ = true) :
    ActivityShown p.name p.head.descr limit p.head.activity.lastActivity (fun s d => p'.plain.putSnapshot d s)
      (fun s d => p'.putSnapshot d s) e k' := by
  obtain ⟨h1, h2, h3⟩ := Panel.history_head h
  have hs' := Panel.shown (p := p') (limit := limit) (by rw [h1]; exact hl) (by rw [h1]; exact hs) e k'
  rwa [h1, h2, h3] at hs'

/-- New panels have no limit, and they contain nothing. -/
theorem C49_new (f : LabelFilter L) (name : String) (e : Env) (k : Nat) :
    Panel.new f e k = some ((.mk { labelFilter := f, activity := { lastActivity := e.clock k } } [] [] [] : Panel σ L), k + 1) ∧
    Panel.named f name e k = some ((.mk { name := some name, labelFilter := f, activity := { lastActivity := e.clock k } } [] [] [] :
      Panel σ L), k + 1) := ⟨rfl, rfl⟩

/-- A panel is made at the moment of its last update. -/
theorem C49_created {f : LabelFilter L} {p : Panel σ L} {e : Env} {k k' : Nat} (h : Panel.new f e k = some (p, k')) :
    p.head.activity = { lastActivity := e.clock k } := by
  simp only [Panel.new, M.bind_eq_some, M.run_now, M.run_pure, Option.some.injEq, Prod.mk.injEq] at h
  obtain ⟨_, _, ⟨rfl, rfl⟩, rfl, rfl⟩ := h
  rfl

/-- A panel with a counter and a limit of one second, made at the first reading of the clock. -/
def limitedPanel : M (Panel Empty Nat) := do
  return ((← Panel.new .acceptAll).addCounter (.new { name := "n" })).setInactivityLimit 1000000000

/-- The panel gets an observation every 0.7 seconds, with a limit of one second. It counts them all. A snapshot 0.7 seconds
after the last observation says that it is inactive, without any values. -/
theorem C49_violated : ∃ (e : Env) (p p' : Panel Empty Nat) (log : List (Event (Observation Nat))) (k : Nat) (s : Snapshot),
    e.Mono ∧ limitedPanel e 0 = some (p, 1) ∧ p.head.activity.maxInactivity = some 1000000000 ∧
    History e 1 p log k p' ∧
    log.map (fun ev => e.clock ev.start) = [700000000, 1400000000, 2100000000] ∧
    reports log = [1, 1, 1] ∧ inputs log = [.observed 1 1 0, .observed 1 1 0, .observed 1 1 0] ∧
    e.clock k = 2800000000 ∧ (p'.putSnapshot false [] e k).map (·.1.2) = some s ∧ s = activityFlags false := by
  refine ⟨ticking, _, _, _, 4, _, ticking_mono, rfl, rfl,
    .cons (op := .input (.observed 1 1 0)) (k₁ := 1) (by omega) rfl
      (.cons (op := .input (.observed 1 1 0)) (k₁ := 2) (by decide) rfl
        (.cons (op := .input (.observed 1 1 0)) (k₁ := 3) (by decide) rfl (.nil (by decide)))), ?_, ?_, ?_, ?_, rfl, ?_⟩ <;> rfl

/-! ## Example: within the limit -/

example : ((do
    let p ← limitedPanel
    let (p, _) ← p.handle (.observed 1 1 0)
    let (_, s) ← p.putSnapshot false []
    return s : M _) ticking 0).map (·.1) =
  some [("_inactive", .boolean false), ("_active", .boolean true), ("n", .uint 1)] := by rfl

example := C49_partial (σ := Empty) (p := .mk { labelFilter := .acceptAll, activity := ⟨0, some 1000000000, true⟩, counter := some (.new { name := "n" }) } [] [] [])
  (played_history (e := ticking) (k := 1) (ops := [.input (.observed 1 1 0), .snapshot [] false] ) rfl) rfl rfl
example := C49_created (σ := Empty) (L := Nat) (f := .acceptAll) (e := ticking) (k := 1) rfl

end Metrix
