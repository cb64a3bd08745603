import Verif.Proof.Activity
import Verif.Props.C45

/-!
# C48 Cockpit/processor/mount inactivity

`ActivityShown` (`Verif.Spec.Activity`) says what a snapshot looks like: longer than the limit after the last activity it
has only the texts and the flags, otherwise the flags and then all values (`plain`: what the same component puts without
name, texts and limit). `lastActive` is the moment of the last activity: for a cockpit the last observation it got, for
processors and mounts the last run that consumed messages; at first it is the moment the component was made.

Cockpits and processors do this only if their activity state is shown, which is the default. With
`set_show_activity_state(false)` the limit has no effect: `C48_hidden_cockpit`, `C48_hidden_processor`. Therefore the
theorems about them are partial. Mounts do not have that setting.
-/

namespace Metrix
variable {σ L : Type} [DecidableEq L] [Custom σ L]

/-- Cockpits. What is missing: cockpits that do not show the activity state. -/
theorem C48_cockpit_partial {e : Env} {k k' : Nat} {c c' : Cockpit σ L} {log : List (Event (Observation L))}
    (h : History e k c log k' c') {limit : Nat} (hl : c.head.activity.maxInactivity = some limit)
    (hs : c.head.activity.show_ = true) :
    ActivityShown c.head.name c.head.descr limit (lastActive e whenObserved c.head.activity.lastActivity log)
      c'.plain.putSnapshot c'.putSnapshot e k' := by
  have := Cockpit.history_head h
  have hs' := Cockpit.shown (c := c') (limit := limit) (by rw [this]; exact hl) (by rw [this]; exact hs) e k'
  rwa [this] at hs'

theorem Cockpit.toHandler_handle (c : Cockpit σ L) (o : Observation L) :
    c.toHandler.handle o = (fun r => (r.1.toHandler, r.2)) <$> c.handle o := by
  simp only [Cockpit.toHandler, Handler.handle, Cockpit.handle, map_bind, map_pure]

omit [DecidableEq L] in
theorem Cockpit.toHandler_put (c : Cockpit σ L) (into : Snapshot) (d : Bool) :
    c.toHandler.putSnapshot d into = (fun r => (r.1.toHandler, r.2)) <$> c.putSnapshot into d := by
  simp only [Cockpit.toHandler, Handler.putSnapshot, Cockpit.putSnapshot, map_bind]
  congr 1; funext g
  split <;> simp

/-- A cockpit that is a handler in another component does what it would do on its own. -/
theorem C48_nested_same {e : Env} {k k' : Nat} {c : Cockpit σ L} {h' : Handler σ L} {log : List (Event (Observation L))}
    (h : History e k c.toHandler log k' h') : ∃ c' : Cockpit σ L, h' = c'.toHandler ∧ History e k c log k' c' := by
  generalize hx : c.toHandler = x at h
  induction h generalizing c with
  | nil hk => exact ⟨c, hx.symm, .nil hk⟩
  | @cons k k₁ k₂ k' i i₁ i' op out log hk hs _ ih =>
    subst hx
    cases op with
    | input a =>
      obtain ⟨n, rfl, h⟩ := step_input_eq_some.mp hs
      have h : c.toHandler.handle a e _ = some ((i₁, n), _) := h
      rw [Cockpit.toHandler_handle, M.map_eq_some] at h
      obtain ⟨⟨c₁, n₁⟩, h, heq⟩ := h
      cases heq
      obtain ⟨c', rfl, hc⟩ := ih rfl
      exact ⟨c', rfl, .cons hk (step_input_eq_some.mpr ⟨_, rfl, h⟩) hc⟩
    | snapshot into d =>
      obtain ⟨s, rfl, h⟩ := step_snapshot_eq_some.mp hs
      have h : c.toHandler.putSnapshot d into e _ = some ((i₁, s), _) := h
      rw [Cockpit.toHandler_put, M.map_eq_some] at h
      obtain ⟨⟨c₁, s₁⟩, h, heq⟩ := h
      cases heq
      obtain ⟨c', rfl, hc⟩ := ih rfl
      exact ⟨c', rfl, .cons hk (step_snapshot_eq_some.mpr ⟨_, rfl, h⟩) hc⟩

/-- Cockpits that are handlers in other components. What is missing: those that do not show the activity state. -/
theorem C48_nested_partial {e : Env} {k k' : Nat} {c : Cockpit σ L} {h' : Handler σ L} {log : List (Event (Observation L))}
    (h : History e k c.toHandler log k' h') {limit : Nat} (hl : c.head.activity.maxInactivity = some limit)
    (hs : c.head.activity.show_ = true) :
    ∃ plain : Cockpit σ L, (∃ c' : Cockpit σ L, h' = c'.toHandler ∧ plain = c'.plain) ∧
    ActivityShown c.head.name c.head.descr limit (lastActive e whenObserved c.head.activity.lastActivity log)
      (fun s d => plain.toHandler.putSnapshot d s) (fun s d => h'.putSnapshot d s) e k' := by
  obtain ⟨c', rfl, hc⟩ := C48_nested_same h
  refine ⟨_, ⟨c', rfl, rfl⟩, fun into d => ?_⟩
  have := C48_cockpit_partial hc hl hs into d
  simp only [Cockpit.toHandler_put, run_map, Option.map_map] at this ⊢
  exact this

/-- Processors. What is missing: processors that do not show the activity state. -/
theorem C48_processor_partial {e : Env} {k k' : Nat} {p p' : Processor σ L} {log : List (Event Run)}
    (h : History e k p log k' p') {limit : Nat} (hl : p.state.activity.maxInactivity = some limit)
    (hs : p.state.activity.show_ = true) :
    ActivityShown p.state.name p.state.descr limit (lastActive e whenConsumed p.state.activity.lastActivity log)
      p'.plain.putSnapshot p'.putSnapshot e k' := by
  obtain ⟨h1, h2, h3⟩ := Processor.history_state h
  have hs' := ProcessorState.shown (p := p') (limit := limit) (by rw [h1]; exact hl) (by rw [h1]; exact hs) e k'
  rwa [h1, h2, h3] at hs'

/-- Mounts and attached mounts. -/
theorem C48_mount [CustomProcessor σ] {e : Env} {k k' : Nat} {n n' : Node σ L} {m : MountHead}
    (hm : n.mountHead = some m) {log : List (Event Run)} (h : History e k n log k' n') {limit : Nat}
    (hl : m.maxInactivity = some limit) :
    ActivityShown m.name m.descr limit (lastActive e whenConsumed m.lastActivity log)
      (fun s d => n'.plain.putSnapshot d s) (fun s d => n'.putSnapshot d s) e k' :=
  Node.shown (Node.history_head hm h) hl e k'

omit [DecidableEq L] [Custom σ L] in
/-- Any activity counts, no matter what was before. -/
theorem C48_reactivated {A : Type} (e : Env) (active : Event A → Option Nat) (t : Int) (log : List (Event A)) (ev : Event A)
    {i : Nat} (hi : active ev = some i) : lastActive e active t (log ++ [ev]) = e.clock i := by
  induction log generalizing t with
  | nil => simp [lastActive, hi]
  | cons a log ih => exact ih _

omit [DecidableEq L] [Custom σ L] in
/-- New cockpits, mounts and processors are made at the moment of their first activity. They have no limit, so they do not become
inactive before one is set, and they contain nothing. -/
theorem C48_new (name : String) (e : Env) (k : Nat) :
    Cockpit.withoutName e k = some (({ head := { activity := { lastActivity := e.clock k } } } : Cockpit σ L), k + 1) ∧
    Cockpit.new name e k = some (({ head := { name := some name, activity := { lastActivity := e.clock k } } } : Cockpit σ L), k + 1) ∧
    MountHead.default e k = some ({ lastActivity := e.clock k }, k + 1) ∧
    MountHead.new name e k = some ({ name := some name, lastActivity := e.clock k }, k + 1) ∧
    ∀ (n : Option String) (r : Receiver (Message σ L)), Processor.create n r e k =
      some ({ state := { name := n, activity := { lastActivity := e.clock k } }, receiver := r }, k + 1) :=
  ⟨rfl, rfl, rfl, rfl, fun _ _ => rfl⟩

/-- A processor is made at the moment of its first activity. -/
theorem C48_created {name : Option String} {r : Receiver (Message σ L)} {p : Processor σ L} {e : Env} {k k' : Nat}
    (h : Processor.create name r e k = some (p, k')) : p.state.activity = { lastActivity := e.clock k } := by
  simp only [Processor.create, M.bind_eq_some, M.run_now, M.run_pure, Option.some.injEq, Prod.mk.injEq] at h
  obtain ⟨_, _, ⟨rfl, rfl⟩, rfl, rfl⟩ := h
  rfl

omit [DecidableEq L] in
/-- If a cockpit does not show its activity state then the inactivity limit has no effect on snapshots. -/
theorem C48_hidden_cockpit {c : Cockpit σ L} (hs : c.head.activity.show_ = false) (into : Snapshot) (d : Bool) (e : Env)
    (k : Nat) :
    (c.putSnapshot into d e k).map (fun r => (r.1.2, r.2)) =
      (({ c with head := { c.head with activity := { c.head.activity with maxInactivity := none } } } :
        Cockpit σ L).putSnapshot into d e k).map (fun r => (r.1.2, r.2)) := by
  have : ({ c with head := { c.head with activity := { c.head.activity with maxInactivity := none } } } :
      Cockpit σ L).putSnapshot into d = (fun r => ({ r.1 with head :=
        { c.head with activity := { c.head.activity with maxInactivity := none } } }, r.2)) <$> c.putSnapshot into d := by
    simp only [Cockpit.putSnapshot, putFlags_hidden hs, putFlags_none, pure_bind, if_true, map_bind, map_pure]
  rw [this, run_map, Option.map_map]
  rfl

omit [DecidableEq L] in
/-- The same for processors. -/
theorem C48_hidden_processor {p : Processor σ L} (hs : p.state.activity.show_ = false) (into : Snapshot) (d : Bool) (e : Env)
    (k : Nat) :
    (p.putSnapshot into d e k).map (fun r => (r.1.2, r.2)) =
      (({ p with state := { p.state with activity := { p.state.activity with maxInactivity := none } } } :
        Processor σ L).putSnapshot into d e k).map (fun r => (r.1.2, r.2)) := by
  have : ({ p with state := { p.state with activity := { p.state.activity with maxInactivity := none } } } :
      Processor σ L).putSnapshot into d = (fun r => ({ r.1 with state := { r.1.state with activity :=
        { p.state.activity with maxInactivity := none } } }, r.2)) <$> p.putSnapshot into d := by
    simp only [Processor.putSnapshot, ProcessorState.putSnapshot, putFlags_hidden hs, putFlags_none, pure_bind, if_true,
      map_bind, map_pure, bind_assoc]
  rw [this, run_map, Option.map_map]
  rfl

/-! ## Example: a limit of one second; the clock advances 0.7 seconds per reading -/

def limitedCockpit : Cockpit Empty Nat where
  head := { name := some "c", activity := { lastActivity := 0, maxInactivity := some 1000000000 } }
  handlers := [.instrument (.new (.counter { name := "n" }))]

/-- Active at first, inactive after 2.1 seconds, active again after an observation. -/
example : ((do
    let (c, s₁) ← limitedCockpit.putSnapshot [] false
    let _ ← M.now
    let (c, s₂) ← c.putSnapshot [] false
    let (c, _) ← c.handle (.observed 1 1 0)
    let (_, s₃) ← c.putSnapshot [] false
    return (s₁, s₂, s₃) : M _) ticking 1).map (·.1) =
  some (
    [("c", .snapshot [("_inactive", .boolean false), ("_active", .boolean true), ("n", .uint 0)])],
    [("c", .snapshot [("_inactive", .boolean true), ("_active", .boolean false)])],
    [("c", .snapshot [("_inactive", .boolean false), ("_active", .boolean true), ("n", .uint 1)])]) := by rfl

/-- The same cockpit as a handler. -/
example : ∃ h log, History ticking 1 limitedCockpit.toHandler log 2 h ∧
    lastActive ticking whenObserved 0 log = ticking.clock 1 := by
  refine ⟨_, _, .cons (op := .input (.observed 1 1 0)) (k₁ := 1) (by decide) rfl (.nil (by decide)), ?_⟩
  decide

/-- The history of that example before the last snapshot. -/
example : ∃ c log, History ticking 1 limitedCockpit log 5 c ∧ inputs log = [.observed 1 1 0] ∧
    ticking.clock 5 - lastActive ticking whenObserved 0 log ≤ 1000000000 := by
  refine ⟨_, _, .cons (op := .snapshot [] false) (k₁ := 1) (by decide) rfl
    (.cons (op := .snapshot [] false) (k₁ := 3) (by decide) rfl
      (.cons (op := .input (.observed 1 1 0)) (k₁ := 4) (by decide) rfl (.nil (by decide)))), rfl, ?_⟩
  decide

example := C48_cockpit_partial (played_history (e := ticking) (k := 1) (c := limitedCockpit)
  (ops := [.snapshot [] false, .input (.observed 1 1 0)]) rfl) rfl rfl
example := C48_nested_same (c := limitedCockpit) (played_history (e := ticking) (k := 1)
  (ops := [.snapshot [] false, .input (.observed 1 1 0)]) rfl)
example := C48_nested_partial (c := limitedCockpit) (played_history (e := ticking) (k := 1)
  (ops := [.snapshot [] false, .input (.observed 1 1 0)]) rfl) rfl rfl
example := C48_processor_partial (played_history (e := ticking) (k := 1)
  (c := { exampleProcessor with state := { exampleProcessor.state with activity := ⟨0, some 1000000000, true⟩ } })
  (ops := [.input ⟨3, .processAll⟩, .snapshot [] false]) rfl) rfl rfl
example := C48_mount (n := exampleMount) rfl (played_history (e := ticking) (k := 1)
  (ops := [.input ⟨3, .processAll⟩, .snapshot [] false]) rfl) rfl
example := C48_reactivated ticking whenObserved 0 [] (⟨1, .input (.observed 1 1 0), .updated 1, 2⟩ : Event (Observation Nat)) rfl
example := C48_created (σ := Empty) (L := Nat) (name := some "p") (r := exampleProcessor.receiver) (e := ticking) (k := 1) rfl
example := C48_hidden_cockpit (c := { limitedCockpit with head := { limitedCockpit.head with activity := ⟨0, some 1, false⟩ } }) rfl
  [("x", .uint 1)] true ticking 1
example := C48_hidden_processor (p := { exampleProcessor with state := { exampleProcessor.state with activity := ⟨0, some 1, false⟩ } }) rfl
  [("x", .uint 1)] true ticking 1

end Metrix
