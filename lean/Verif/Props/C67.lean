import Verif.Proof.Layout
import Verif.Props.C65

/-!
# C67 Only configuration changes the configuration

`bare` is a processor without what it has measured: its name, texts and limits, and its cockpits, panels, handlers, instruments
and snapshooters with their names, texts, label filters, units and limits. It is determined by the calls of the owner and
the messages that configure the processor. Observations and snapshots do not change it, no matter how many there are, when they
occur, in which order and whether they are dropped.
-/

namespace Metrix
variable {σ L : Type}

/-! ## Messages that are still to come -/

/-- What is queued or still going to be sent. -/
def Channel.Expects {μ : Type} (c : Channel μ) (P : μ → Prop) : Prop :=
  (∀ x ∈ c.queue, P x.2) ∧ ∀ th ∈ c.threads, ∀ m ∈ th.todo, P m

theorem Channel.Expects.act {μ : Type} {P : μ → Prop} {c : Channel μ} (h : c.Expects P) (a : Action) : (c.act a).Expects P := by
  have hset : ∀ (t : Nat) (th : SendThread μ), (∀ m ∈ th.todo, P m) → ∀ th' ∈ c.threads.set t th, ∀ m ∈ th'.todo, P m := by
    intro t th hth th' hm
    rcases List.mem_or_eq_of_mem_set hm with hm | rfl
    · exact h.2 th' hm
    · exact hth
  cases a with
  | thread t =>
    simp only [Channel.act]
    have hs := Channel.step_spec c t
    generalize c.step t = c' at hs
    cases hs with
    | nothing => exact h
    | drop th ht => exact ⟨h.1, hset t _ (h.2 th (List.mem_of_getElem? ht))⟩
    | accept th m rest ht _ htd =>
      have hth := h.2 th (List.mem_of_getElem? ht)
      rw [htd] at hth
      refine ⟨fun x hx => ?_, hset t _ fun m hm => hth m (by simp [hm])⟩
      rcases List.mem_append.mp hx with hx | hx
      · exact h.1 x hx
      · rw [List.mem_singleton.mp hx]; exact hth m (by simp)
    | lose th m rest ht _ htd =>
      have hth := h.2 th (List.mem_of_getElem? ht)
      rw [htd] at hth
      exact ⟨h.1, hset t _ fun m hm => hth m (by simp [hm])⟩
  | receive =>
    simp only [Channel.act, Channel.take]
    cases hq : c.queue with
    | nil => exact h
    | cons x q => exact ⟨fun y hy => h.1 y (by rw [hq]; simp [hy]), h.2⟩
  | dropReceiver => exact ⟨fun _ hx => by simp [Channel.act, Channel.dropReceiver] at hx, h.2⟩

theorem Took.expected {μ : Type} {P : μ → Prop} {c c' : Channel μ} {ms : List μ} (h : Took c c' ms) (hc : c.Expects P) :
    ∀ m ∈ ms, P m := by
  obtain ⟨⟨as, _, rfl⟩, l, rfl, hl⟩ := h
  have hall : (c.acts as).Expects P ∧ ∃ l, (c.acts as).taken = c.taken ++ l ∧ ∀ x ∈ l, P x.2 := by
    refine Channel.acts_induction (P := fun d => d.Expects P ∧ ∃ l, d.taken = c.taken ++ l ∧ ∀ x ∈ l, P x.2) ?_ c as
      ⟨hc, [], by simp, by simp⟩
    intro d a ⟨he, l, hl, hP⟩
    refine ⟨he.act a, ?_⟩
    cases a with
    | thread t => exact ⟨l, by simp only [Channel.act]; rw [Channel.step_taken]; exact hl, hP⟩
    | receive =>
      simp only [Channel.act, Channel.take]
      cases hq : d.queue with
      | nil => exact ⟨l, hl, hP⟩
      | cons x q =>
        refine ⟨l ++ [x], by simp [hl], fun y hy => ?_⟩
        rcases List.mem_append.mp hy with hy | hy
        · exact hP y hy
        · rw [List.mem_singleton.mp hy]; exact he.1 x (by rw [hq]; simp)
    | dropReceiver => exact ⟨l, hl, hP⟩
  obtain ⟨_, l', hl', hP⟩ := hall
  rw [hl', List.append_cancel_left_eq] at hl
  subst hl
  intro m hm
  obtain ⟨x, hx, rfl⟩ := List.mem_map.mp hm
  exact hP x hx

variable [DecidableEq L] [Custom σ L]
variable {e : Env} {k k' : Nat} {p p' : Processor σ L} {log : List (Called σ L)}

/-- The configuration of a processor after any use of it is the one before, changed by the calls and messages that configure
it, in the order in which they were made and received. -/
theorem C67_life (h : Life e k p log k' p') :
    ∃ consumed : List (List (Message σ L)), consumed.length = log.length ∧
      Took p.receiver.chan p'.receiver.chan consumed.flatten ∧
      p'.state.bare = (settingsIn log consumed).foldl ProcessorState.withSetting p.state.bare := by
  obtain ⟨consumed, hst, htook⟩ := life_story h
  refine ⟨consumed.map (·.map (·.1)), by simp [hst.length], ?_, hst.bare⟩
  rw [List.map_flatten] at htook
  exact htook

/-- Whatever is observed, dropped and shown, whenever and by whichever threads: if nobody configures the processor, its
configuration stays the same. -/
theorem C67_unchanged (h : Life e k p log k' p') (hcalls : ∀ c ∈ log, c.call.isSetting = false)
    (hmessages : p.receiver.chan.Expects (·.isSetting = false)) : p'.state.bare = p.state.bare := by
  obtain ⟨consumed, _, htook, hb⟩ := C67_life h
  rw [hb, settingsIn_nil hcalls (htook.expected hmessages)]
  rfl

/-- So it shows the same things in the same groups. -/
theorem C67_shows (h : Life e k p log k' p') (hcalls : ∀ c ∈ log, c.call.isSetting = false)
    (hmessages : p.receiver.chan.Expects (·.isSetting = false)) :
    p'.state.exhibits.map Exhibit.bare = p.state.exhibits.map Exhibit.bare ∧ p'.state.groups = p.state.groups := by
  rw [← ProcessorState.bare_exhibits, ← ProcessorState.bare_exhibits, ← ProcessorState.bare_groups p'.state,
    ← ProcessorState.bare_groups p.state, C67_unchanged h hcalls hmessages]
  exact ⟨rfl, rfl⟩

omit [DecidableEq L] [Custom σ L] in
/-- No observation makes an instrument use more memory for what it tracks: there are as many buckets as before. -/
theorem C67_tracking {g g' : Gauge} {log : List (Event Update)} (h : History e k g log k' g') :
    g'.tracking.map (·.buckets.length) = g.tracking.map (·.buckets.length) := by
  have hb : g'.bare = g.bare :=
    History.preserves (fun g' : Gauge => g'.bare = g.bare) (fun c op e k c' out k' hP hs => by
      cases op with
      | input u =>
        obtain ⟨n, _, hs⟩ := step_input_eq_some.mp hs
        exact (c.keepsBare_update u _ _ _ _ hs).trans hP
      | snapshot s d =>
        obtain ⟨n, _, hs⟩ := step_snapshot_eq_some.mp hs
        exact (c.keepsBare_putSnapshot s d _ _ _ _ hs).trans hP) h rfl
  have ht := congrArg Gauge.tracking hb
  simp only [Gauge.bare] at ht
  have := congrArg (Option.map fun b => b.buckets.length) ht
  simpa [Function.comp_def, SecondsBuckets.bare] using this

variable [CustomProcessor σ]

/-- A processor in a driver is not configured by the driver. If only observations are sent to it, it keeps its configuration. -/
theorem C67_driven (hc : CustomForward σ L) (hp : CustomProcessorForward σ) {t : DriverThread σ L} {l' : Loop σ L}
    {name : Option String} {descr : Descr} {strategy : Strategy} {withMetrics : Bool} {handles : List (SendThread (DriverMsg σ L))}
    (hnew : NewDriver e k name descr strategy withMetrics handles t) {before after : List (Iteration σ L)} {i : Iteration σ L}
    (h : DriverLife e k t (before ++ i :: after) k' (.running l')) {n : Node σ L} {way : List Nat}
    (hi : i.message = some (.addProcessor n)) (hn : n.at way = some (.processor p))
    (hmessages : p.receiver.chan.Expects (·.isSetting = false)) :
    ∃ n' p', l'.state.processors[(addedProcessors (handled before)).length]? = some n' ∧ n'.at way = some (.processor p') ∧
      p'.state.bare = p.state.bare := by
  obtain ⟨k₁, calls, n', p', _, hl, hr, hn', ha, _⟩ := C65_life hc hp hnew h hi hn
  refine ⟨n', p', hn', ha, C67_unchanged hl (fun c hcl => ?_) hmessages⟩
  cases hcr : c.call.run? with
  | none => obtain ⟨_, _, hs⟩ := hr.others c hcl hcr; rw [hs]; rfl
  | some r =>
    cases hcc : c.call <;> rw [hcc] at hcr <;> first | rfl | cases hcr

/-! ## Examples -/

omit [DecidableEq L] [Custom σ L] [CustomProcessor σ] in
/-- Renaming a processor is not an observation. -/
example (s : ProcessorState Unit L) (n : String) (h : s.name ≠ some n) : s.withSetting (.call (.setName n)) ≠ s := by
  intro h'
  exact h (congrArg ProcessorState.name h').symm

/-- Only observations are sent to the processor of C65. -/
example : deliveredProcessor.receiver.chan.Expects (·.isSetting = false) := by
  refine ⟨fun x hx => (by cases hx), ?_⟩
  intro th hth
  simp only [deliveredProcessor, totalProcessor, totalPrograms, Channel.fresh, List.mem_cons, List.not_mem_nil, or_false] at hth
  rcases hth with rfl | rfl <;> simp [Message.isSetting]

/-- One thread sends observations and adds a panel to the cockpit "c", another one sends observations, too, and removes a
cockpit that does not exist. -/
def reconfiguring : Processor Empty Nat where
  state := { name := some "p", activity := ⟨0, none, true⟩
             cockpits := [{ head := { name := some "c", activity := ⟨0, none, true⟩ } }] }
  receiver := { chan := .fresh none true [
                  { todo := [.observation (.observedOne 1 0), .addPanelToCockpit "c" (.mk {
                      labelFilter := .acceptAll, name := some "a", activity := ⟨0, none, true⟩, counter := some (.new { name := "hits" }) } [] [] []),
                      .observation (.observedOne 1 0)] },
                  { todo := [.observation (.observedOne 2 0), .removeCockpit "d", .observation (.observedOne 3 0)] }]
                ahead := [[0, 1], [0, 1], [1, 0], [], [], []] }

example : (reconfiguring.process 6 .processAll ticking 1).map (fun r => r.1.1.state.groups) = some [["p"], ["p", "c"], ["p", "c", "a"]] ∧
    (reconfiguring.process 6 .processAll ticking 1).map (fun r => r.1.2.processed) = some 6 := by
  decide +kernel

example : ∃ log k' p', Life ticking 1 reconfiguring log k' p' ∧ log.length = 2 ∧ p'.state.name = some "q" :=
  ⟨_, _, _, .cons (c := .process 6 .processAll) (Nat.le_refl _) rfl
    (.cons (c := .setName "q") (Nat.le_refl _) rfl (.nil (Nat.le_refl _))), rfl, rfl⟩

/-- A gauge that tracks three seconds. -/
example : ∃ log k' g', History ticking 1 { name := "g", tracking := some ⟨[default, default, default], 0, 2⟩ : Gauge } log k' g' ∧
    g'.tracking.map (·.buckets.map (·.count)) = some [1, 0, 1] :=
  ⟨[_, _], _, _, .cons (k₁ := 1) (by decide) (op := .input (.withValue (.unsignedInteger 3) 0)) rfl
    (.cons (k₁ := 2) (by decide) (op := .input (.withValue (.unsignedInteger 5) 0)) rfl (.nil (Nat.le_refl _))), rfl⟩

end Metrix
