import Verif.Spec.Activity
import Verif.Proof.History
import Verif.Proof.Named
import Verif.Proof.Describe

/-! Activity flags. -/

namespace Metrix

theorem putFlags_inactive {a : Activity} {limit : Nat} (hl : a.maxInactivity = some limit) (hs : a.show_ = true) {e : Env}
    {k : Nat} (h : e.clock k - a.lastActivity > limit) (into : Snapshot) :
    a.putFlags into e k = some ((false, into ++ activityFlags false), k + 1) := by
  have h' : sinceNs (e.clock k) a.lastActivity > limit := by unfold sinceNs; omega
  unfold Activity.putFlags
  simp only [hl, hs, if_true]
  rw [M.run_bind_some (M.run_now e k), if_pos h']
  simp [Snapshot.push, activityFlags]

theorem putFlags_active {a : Activity} {limit : Nat} (hl : a.maxInactivity = some limit) (hs : a.show_ = true) {e : Env}
    {k : Nat} (h : e.clock k - a.lastActivity ≤ limit) (into : Snapshot) :
    a.putFlags into e k = some ((true, into ++ activityFlags true), k + 1) := by
  have h' : ¬ sinceNs (e.clock k) a.lastActivity > limit := by unfold sinceNs; omega
  unfold Activity.putFlags
  simp only [hl, hs, if_true]
  rw [M.run_bind_some (M.run_now e k), if_neg h']
  simp [Snapshot.push, activityFlags]

theorem putFlags_none {a : Activity} (hl : a.maxInactivity = none) (into : Snapshot) :
    a.putFlags into = pure (true, into) := by
  unfold Activity.putFlags; simp only [hl]

theorem putFlags_hidden {a : Activity} (hs : a.show_ = false) (into : Snapshot) :
    a.putFlags into = pure (true, into) := by
  unfold Activity.putFlags
  split
  · simp only [hs, Bool.false_eq_true, if_false]
  · rfl

/-- The shape that all components share: flags, then either the values or nothing. -/
theorem shown_of_shape {C : Type} {a : Activity} {limit : Nat} (hl : a.maxInactivity = some limit) (hs : a.show_ = true)
    {name : Option String} {descr : Descr} {c : C} {put values : Snapshot → Bool → M (C × Snapshot)} {f : C → C}
    {rest : Snapshot → Bool → M (C × Snapshot)}
    (hp : ∀ into d, put into d = (a.putFlags (putDefaultDescriptives descr (levelFor name into) d) >>= fun g =>
      if g.1 then (fun r => (r.1, closeLevel name into r.2)) <$> rest g.2 d else pure (c, closeLevel name into g.2)))
    (hv : ∀ into d, values into d = (fun r => (f r.1, r.2)) <$> rest into d) (e : Env) (k : Nat) :
    ActivityShown name descr limit a.lastActivity values put e k := by
  intro into d
  refine ⟨fun h => ?_, fun h => ?_⟩
  · rw [hp, M.run_bind_some (putFlags_inactive hl hs h _)]; rfl
  · rw [hp, M.run_bind_some (putFlags_active hl hs h _), hv]
    simp only [if_true]
    rw [run_map, run_map, Option.map_map, Option.map_map]; rfl

variable {σ L : Type} [Custom σ L]

theorem Cockpit.shown {c : Cockpit σ L} {limit : Nat} (hl : c.head.activity.maxInactivity = some limit)
    (hs : c.head.activity.show_ = true) (e : Env) (k : Nat) :
    ActivityShown c.head.name c.head.descr limit c.head.activity.lastActivity c.plain.putSnapshot c.putSnapshot e k := by
  refine shown_of_shape hl hs (c := c) (f := Cockpit.plain) (rest := fun level d => do
    let (panels, level) ← putPanels d c.panels level
    let (handlers, level) ← putHandlers d c.handlers level
    let (snapshooters, level) ← putSnapshooters d c.snapshooters level
    return ({ c with panels, handlers, snapshooters }, level)) (fun into d => ?_) (fun into d => ?_) e k
  · simp only [Cockpit.putSnapshot, map_bind, map_pure]
  · simp only [Cockpit.putSnapshot, Cockpit.plain, putDefault_empty, levelFor, putFlags_none, pure_bind, if_true, map_bind,
      map_pure, closeLevel]

theorem ProcessorState.shown {p : Processor σ L} {limit : Nat} (hl : p.state.activity.maxInactivity = some limit)
    (hs : p.state.activity.show_ = true) (e : Env) (k : Nat) :
    ActivityShown p.state.name p.state.descr limit p.state.activity.lastActivity p.plain.putSnapshot p.putSnapshot e k := by
  refine shown_of_shape hl hs (c := p) (f := Processor.plain) (rest := fun level d => do
    let (cockpits, level) ← putCockpits d p.state.cockpits level
    let (handlers, level) ← putHandlers d p.state.handlers level
    let (snapshooters, level) ← putSnapshooters d p.state.snapshooters level
    return ({ p with state := { p.state with cockpits, handlers, snapshooters } }, level)) (fun into d => ?_)
    (fun into d => ?_) e k
  · simp only [Processor.putSnapshot, ProcessorState.putSnapshot, map_bind, map_pure, bind_assoc]
    congr 1; funext g; split <;> simp
  · simp only [Processor.putSnapshot, ProcessorState.putSnapshot, Processor.plain, putDefault_empty, levelFor, putFlags_none,
      pure_bind, if_true, map_bind, map_pure, closeLevel, bind_assoc]

omit [Custom σ L] in
theorem PanelHead.putSlots_set (h : PanelHead L) (n : Option String) (ds : Descr) (a : Activity) (into : Snapshot) (d : Bool) :
    PanelHead.putSlots { h with name := n, descr := ds, activity := a } into d =
      (fun r => ({ r.1 with name := n, descr := ds, activity := a }, r.2)) <$> h.putSlots into d := by
  simp only [PanelHead.putSlots, map_bind, map_pure]

omit [Custom σ L] in
/-- Only the slots change. -/
theorem PanelHead.putSlots_keep (h : PanelHead L) (into : Snapshot) (d : Bool) :
    h.putSlots into d =
      (fun r => ({ r.1 with name := h.name, descr := h.descr, activity := h.activity }, r.2)) <$> h.putSlots into d := by
  simp only [PanelHead.putSlots, map_bind, map_pure]

theorem Panel.shown {p : Panel σ L} {limit : Nat} (hl : p.head.activity.maxInactivity = some limit)
    (hs : p.head.activity.show_ = true) (e : Env) (k : Nat) :
    ActivityShown p.name p.head.descr limit p.head.activity.lastActivity (fun s d => p.plain.putSnapshot d s)
      (fun s d => p.putSnapshot d s) e k := by
  obtain ⟨h, ps, hs', ss⟩ := p
  refine shown_of_shape hl hs (c := Panel.mk h ps hs' ss) (f := Panel.plain) (rest := fun level d => do
    let (h, level) ← h.putSlots level d
    let (ps, level) ← putPanels d ps level
    let (ss, level) ← putSnapshooters d ss level
    let (hs, level) ← putHandlers d hs' level
    return (.mk h ps hs ss, level)) (fun into d => ?_) (fun into d => ?_) e k
  · simp only [map_bind, map_pure]
    rw [Panel.putSnapshot]
    congr 1; funext g
    split
    · rw [PanelHead.putSlots_keep]
      simp only [bind_map_left, Panel.name, Panel.head]
  · rw [Panel.plain, Panel.putSnapshot]
    simp only [putDefault_empty, levelFor, putFlags_none, pure_bind, if_true, PanelHead.putSlots_set, bind_map_left, map_bind,
      map_pure, closeLevel]
    rw [PanelHead.putSlots_keep]
    simp only [bind_map_left, Panel.plain]

variable [CustomProcessor σ]

theorem Node.shown {n : Node σ L} {h : MountHead} (hh : n.mountHead = some h) {limit : Nat}
    (hl : h.maxInactivity = some limit) (e : Env) (k : Nat) :
    ActivityShown h.name h.descr limit h.lastActivity (fun s d => n.plain.putSnapshot d s) (fun s d => n.putSnapshot d s) e k := by
  cases n with
  | processor p => cases hh
  | driver as => cases hh
  | custom s => cases hh
  | mount h' ns ss =>
    cases hh
    refine shown_of_shape (a := h.activity) hl rfl (c := Node.mount h ns ss) (f := Node.plain) (rest := fun level d => do
      let (ns, level) ← putNodes d ns level
      let (ss, level) ← putSnapshooters d ss level
      return (.mount h ns ss, level)) (fun into d => ?_) (fun into d => ?_) e k
    · rw [Node.putSnapshot]; simp only [map_bind, map_pure]
    · rw [Node.plain, Node.putSnapshot]
      simp only [putDefault_empty, levelFor, MountHead.activity, putFlags_none, pure_bind, if_true, map_bind, map_pure,
        closeLevel, Node.plain]
  | attached h' ns ss inbox =>
    cases hh
    refine shown_of_shape (a := h.activity) hl rfl (c := Node.attached h ns ss inbox) (f := Node.plain)
      (rest := fun level d => do
        let (ns, level) ← putNodes d ns level
        let (ss, level) ← putSnapshooters d ss level
        return (.attached h ns ss inbox, level)) (fun into d => ?_) (fun into d => ?_) e k
    · rw [Node.putSnapshot]; simp only [map_bind, map_pure]
    · rw [Node.plain, Node.putSnapshot]
      simp only [putDefault_empty, levelFor, MountHead.activity, putFlags_none, pure_bind, if_true, map_bind, map_pure,
        closeLevel, Node.plain]

/-! ## Histories -/

omit [CustomProcessor σ] in
theorem Cockpit.put_head (c : Cockpit σ L) (into : Snapshot) (d : Bool) : (c.putSnapshot into d).Post fun r => r.1.head = c.head := by
  refine .bindAny fun g => .ite ?_ (.pure rfl)
  exact .bindAny fun _ => .bindAny fun _ => .bindAny fun _ => .pure rfl

omit [CustomProcessor σ] in
theorem Cockpit.handle_head [DecidableEq L] {c c' : Cockpit σ L} {o : Observation L} {n : Nat} {e : Env} {k k' : Nat}
    (h : c.handle o e k = some ((c', n), k')) :
    c'.head = { c.head with activity := { c.head.activity with lastActivity := e.clock k } } := by
  simp only [Cockpit.handle, M.bind_eq_some, M.run_now, M.run_pure, Option.some.injEq, Prod.mk.injEq] at h
  obtain ⟨_, _, ⟨rfl, rfl⟩, _, _, _, _, _, _, ⟨rfl, _⟩, _⟩ := h
  rfl

omit [CustomProcessor σ] in
theorem Cockpit.history_head [DecidableEq L] {e : Env} {k k' : Nat} {c c' : Cockpit σ L} {log : List (Event (Observation L))}
    (h : History e k c log k' c') :
    c'.head = { c.head with activity :=
      { c.head.activity with lastActivity := lastActive e whenObserved c.head.activity.lastActivity log } } := by
  induction h with
  | nil => rfl
  | @cons k k₁ k₂ k' c c₁ c' op out log _ hs _ ih =>
    rw [ih]
    cases op with
    | input a =>
      obtain ⟨n, rfl, h⟩ := step_input_eq_some.mp hs
      rw [Cockpit.handle_head h]; rfl
    | snapshot into d =>
      obtain ⟨s, rfl, h⟩ := step_snapshot_eq_some.mp hs
      have := Cockpit.put_head c into d _ _ _ _ h
      simp only at this
      rw [this]; rfl

omit [CustomProcessor σ] in
theorem Panel.handle_head [DecidableEq L] {p p' : Panel σ L} {o : Observation L} {n : Nat} {e : Env} {k k' : Nat}
    (h : p.handle o e k = some ((p', n), k')) :
    p'.head.activity = p.head.activity ∧ p'.name = p.name ∧ p'.head.descr = p.head.descr := by
  obtain ⟨hd, ps, hs, ss⟩ := p
  rw [Panel.handle] at h
  split at h
  · simp only [PanelHead.handle, M.bind_eq_some, M.run_pure, Option.some.injEq, Prod.mk.injEq] at h
    obtain ⟨_, _, ⟨_, _, _, _, _, _, _, _, _, _, _, _, rfl, _⟩, _, _, _, _, _, _, ⟨rfl, _⟩, _⟩ := h
    exact ⟨rfl, rfl, rfl⟩
  · simp only [M.run_pure, Option.some.injEq, Prod.mk.injEq] at h
    rw [← h.1.1]; exact ⟨rfl, rfl, rfl⟩

omit [CustomProcessor σ] in
theorem Panel.put_head (p : Panel σ L) (into : Snapshot) (d : Bool) :
    (p.putSnapshot d into).Post fun r =>
      r.1.head.activity = p.head.activity ∧ r.1.name = p.name ∧ r.1.head.descr = p.head.descr := by
  obtain ⟨hd, ps, hs, ss⟩ := p
  rw [Panel.putSnapshot]
  refine .bindAny fun g => .ite ?_ (.pure ⟨rfl, rfl, rfl⟩)
  refine .bind (fun r => r.1.activity = hd.activity ∧ r.1.name = hd.name ∧ r.1.descr = hd.descr) ?_
    fun r hr => .bindAny fun _ => .bindAny fun _ => .bindAny fun _ => .pure hr
  exact .bindAny fun _ => .bindAny fun _ => .bindAny fun _ => .bindAny fun _ => .pure ⟨rfl, rfl, rfl⟩

omit [CustomProcessor σ] in
theorem Panel.history_head [DecidableEq L] {e : Env} {k k' : Nat} {p p' : Panel σ L} {log : List (Event (Observation L))}
    (h : History e k p log k' p') :
    p'.head.activity = p.head.activity ∧ p'.name = p.name ∧ p'.head.descr = p.head.descr := by
  induction h with
  | nil => exact ⟨rfl, rfl, rfl⟩
  | @cons k k₁ k₂ k' p p₁ p' op out log _ hs _ ih =>
    rw [ih.1, ih.2.1, ih.2.2]
    cases op with
    | input a =>
      obtain ⟨n, rfl, h⟩ := step_input_eq_some.mp hs
      exact Panel.handle_head h
    | snapshot into d =>
      obtain ⟨s, rfl, h⟩ := step_snapshot_eq_some.mp hs
      exact Panel.put_head p into d _ _ _ _ h

theorem somethingHappened_iff (o : Outcome) : o.somethingHappened = true ↔ o.processed + o.dropped ≠ 0 := by
  simp only [Outcome.somethingHappened, Bool.or_eq_true, decide_eq_true_eq]; omega

omit [CustomProcessor σ] in
theorem receive_same [DecidableEq L] (dc : Decider) (s : ProcessorState σ L) (t : Tally) (m : Message σ L) :
    (s.receive dc t m).Post fun r => r.1.activity = s.activity ∧ r.1.name = s.name ∧ r.1.descr = s.descr := by
  cases m with
  | observation o => exact .ite (.bindAny fun _ => .bindAny fun _ => .pure ⟨rfl, rfl, rfl⟩) (.pure ⟨rfl, rfl, rfl⟩)
  | addCockpit c =>
    refine .pure ?_
    simp only [ProcessorState.addCockpit]
    split
    · split <;> exact ⟨rfl, rfl, rfl⟩
    · exact ⟨rfl, rfl, rfl⟩
  | removeCockpit n => exact .pure ⟨rfl, rfl, rfl⟩
  | addHandler x => exact .pure ⟨rfl, rfl, rfl⟩
  | addPanelToCockpit n p => exact .pure ⟨rfl, rfl, rfl⟩
  | removePanelFromCockpit n p => exact .pure ⟨rfl, rfl, rfl⟩

omit [CustomProcessor σ] in
theorem receiveLoop_same [DecidableEq L] (dc : Decider) (n : Nat) (p : Processor σ L) (t : Tally) :
    (p.receiveLoop dc n t).Post fun r =>
      r.1.state.activity = p.state.activity ∧ r.1.state.name = p.state.name ∧ r.1.state.descr = p.state.descr := by
  induction n generalizing p t with
  | zero => exact .pure ⟨rfl, rfl, rfl⟩
  | succ n ih =>
    unfold Processor.receiveLoop
    split
    · refine .bind _ (receive_same dc p.state t _) fun r hr => ?_
      refine (ih _ _).mono fun x hx => ?_
      exact ⟨hx.1.trans hr.1, hx.2.1.trans hr.2.1, hx.2.2.trans hr.2.2⟩
    · exact ih _ _
    · exact .pure ⟨rfl, rfl, rfl⟩

omit [CustomProcessor σ] in
theorem Processor.process_activity [DecidableEq L] {p p' : Processor σ L} {max : Nat} {strategy : Strategy} {o : Outcome}
    {e : Env} {k k' : Nat} (h : p.process max strategy e k = some ((p', o), k')) :
    p'.state.activity = { p.state.activity with lastActivity :=
      if o.processed + o.dropped = 0 then p.state.activity.lastActivity else e.clock (k' - 1) } ∧
    p'.state.name = p.state.name ∧ p'.state.descr = p.state.descr := by
  unfold Processor.process at h
  split at h
  · simp only [M.run_pure, Option.some.injEq, Prod.mk.injEq] at h
    obtain ⟨⟨rfl, rfl⟩, rfl⟩ := h
    exact ⟨rfl, rfl, rfl⟩
  · obtain ⟨dc, k₁, h1, h⟩ := M.bind_eq_some.mp h
    obtain ⟨⟨q, t⟩, k₂, h2, h⟩ := M.bind_eq_some.mp h
    have hs := receiveLoop_same dc max p {} _ _ _ _ h2
    simp only at hs h
    split at h
    · rename_i hh
      rw [somethingHappened_iff] at hh
      simp only [M.bind_eq_some, M.run_now, M.run_pure, Option.some.injEq, Prod.mk.injEq] at h
      obtain ⟨_, _, ⟨rfl, rfl⟩, ⟨rfl, rfl⟩, rfl⟩ := h
      refine ⟨?_, hs.2⟩
      rw [if_neg hh]
      simp only [hs.1, Nat.add_sub_cancel]
    · rename_i hh
      rw [somethingHappened_iff, Ne, Classical.not_not] at hh
      simp only [M.run_pure, Option.some.injEq, Prod.mk.injEq] at h
      obtain ⟨⟨rfl, rfl⟩, rfl⟩ := h
      refine ⟨?_, hs.2⟩
      rw [if_pos hh]
      exact hs.1

omit [CustomProcessor σ] in
theorem Processor.put_activity (p : Processor σ L) (into : Snapshot) (d : Bool) :
    (p.putSnapshot into d).Post fun r => r.1.state.activity = p.state.activity ∧ r.1.state.name = p.state.name ∧
      r.1.state.descr = p.state.descr := by
  refine .bind (fun r => r.1.activity = p.state.activity ∧ r.1.name = p.state.name ∧ r.1.descr = p.state.descr) ?_
    fun _ h => .pure h
  refine .bindAny fun g => .ite ?_ (.pure ⟨rfl, rfl, rfl⟩)
  exact .bindAny fun _ => .bindAny fun _ => .bindAny fun _ => .pure ⟨rfl, rfl, rfl⟩

/-- What is kept by a component with a moment of last activity. -/
theorem history_activity {C : Type} [Component C Run] {e : Env} {k k' : Nat} {c c' : C} {log : List (Event Run)}
    (h : History e k c log k' c') (at_ : C → Option Int) (P : C → Prop)
    (htake : ∀ c r e k c' n k', P c → Component.take c r e k = some ((c', n), k') →
      P c' ∧ at_ c' = if n = 0 then at_ c else some (e.clock (k' - 1)))
    (hput : ∀ c s d e k c' s' k', P c → Component.putSnapshot c s d e k = some ((c', s'), k') → P c' ∧ at_ c' = at_ c)
    (hP : P c) {t : Int} (ht : at_ c = some t) :
    P c' ∧ at_ c' = some (lastActive e whenConsumed t log) := by
  induction h generalizing t with
  | nil => exact ⟨hP, ht⟩
  | @cons k k₁ k₂ k' c c₁ c' op out log _ hs _ ih =>
    cases op with
    | input a =>
      obtain ⟨n, rfl, h⟩ := step_input_eq_some.mp hs
      obtain ⟨h1, h2⟩ := htake _ _ _ _ _ _ _ hP h
      refine ih h1 ?_
      rw [h2]
      by_cases hn : n = 0
      · simp [whenConsumed, hn, ht]
      · simp [whenConsumed, hn]
    | snapshot into d =>
      obtain ⟨s, rfl, h⟩ := step_snapshot_eq_some.mp hs
      obtain ⟨h1, h2⟩ := hput _ _ _ _ _ _ _ _ hP h
      exact ih h1 (h2.trans ht)

omit [CustomProcessor σ] in
theorem Processor.history_state [DecidableEq L] {e : Env} {k k' : Nat} {p p' : Processor σ L} {log : List (Event Run)}
    (h : History e k p log k' p') :
    p'.state.activity = { p.state.activity with
      lastActivity := lastActive e whenConsumed p.state.activity.lastActivity log } ∧
    p'.state.name = p.state.name ∧ p'.state.descr = p.state.descr := by
  have := history_activity h (fun p => some p.state.activity.lastActivity) (fun q =>
    q.state.activity.maxInactivity = p.state.activity.maxInactivity ∧ q.state.activity.show_ = p.state.activity.show_ ∧
    q.state.name = p.state.name ∧ q.state.descr = p.state.descr) ?_ ?_ ⟨rfl, rfl, rfl, rfl⟩ rfl
  · obtain ⟨⟨h1, h2, h3, h4⟩, h5⟩ := this
    simp only [Option.some.injEq] at h5
    refine ⟨?_, h3, h4⟩
    show p'.state.activity = ⟨_, p.state.activity.maxInactivity, p.state.activity.show_⟩
    rw [← h1, ← h2, ← h5]
  · intro c r e k c' n k' hP ht
    simp only [Component.take, M.bind_eq_some, M.run_pure, Option.some.injEq, Prod.mk.injEq] at ht
    obtain ⟨⟨q, o⟩, _, h1, ⟨rfl, rfl⟩, rfl⟩ := ht
    obtain ⟨h2, h3, h4⟩ := Processor.process_activity h1
    simp only [h2, h3, h4]
    refine ⟨hP, ?_⟩
    split <;> rfl
  · intro c s d e k c' s' k' hP ht
    obtain ⟨h2, h3, h4⟩ := Processor.put_activity c s d _ _ _ _ ht
    dsimp only at h2 h3 h4
    rw [h2, h3, h4]
    exact ⟨hP, rfl⟩

theorem Node.put_mountHead (n : Node σ L) (into : Snapshot) (d : Bool) :
    (n.putSnapshot d into).Post fun r => r.1.mountHead = n.mountHead := by
  cases n with
  | processor p => rw [Node.putSnapshot]; exact .bindAny fun _ => .pure rfl
  | driver as => rw [Node.putSnapshot]; exact .pure rfl
  | custom s => rw [Node.putSnapshot]; exact .bindAny fun _ => .pure rfl
  | mount h ns ss =>
    rw [Node.putSnapshot]
    exact .bindAny fun g => .ite (.bindAny fun _ => .bindAny fun _ => .pure rfl) (.pure rfl)
  | attached h ns ss inbox =>
    rw [Node.putSnapshot]
    exact .bindAny fun g => .ite (.bindAny fun _ => .bindAny fun _ => .pure rfl) (.pure rfl)

theorem afterRun_clock {h h' : MountHead} {o : Outcome} {e : Env} {k k' : Nat} (hr : h.afterRun o e k = some (h', k')) :
    h' = { h with lastActivity := if o.processed + o.dropped = 0 then h.lastActivity else e.clock (k' - 1) } := by
  unfold MountHead.afterRun at hr
  split at hr
  · rename_i hh
    rw [somethingHappened_iff] at hh
    simp only [M.bind_eq_some, M.run_now, M.run_pure, Option.some.injEq, Prod.mk.injEq] at hr
    obtain ⟨_, _, ⟨rfl, rfl⟩, rfl, rfl⟩ := hr
    rw [if_neg hh]; simp
  · rename_i hh
    rw [somethingHappened_iff, Ne, Classical.not_not] at hh
    simp only [M.run_pure, Option.some.injEq, Prod.mk.injEq] at hr
    obtain ⟨rfl, rfl⟩ := hr
    rw [if_pos hh]

theorem Node.process_mountHead [DecidableEq L] {n n' : Node σ L} {h : MountHead} (hh : n.mountHead = some h) {max : Nat}
    {strategy : Strategy} {o : Outcome} {e : Env} {k k' : Nat} (hp : n.process max strategy e k = some ((n', o), k')) :
    n'.mountHead = some { h with
      lastActivity := if o.processed + o.dropped = 0 then h.lastActivity else e.clock (k' - 1) } := by
  cases n with
  | processor p => cases hh
  | driver as => cases hh
  | custom s => cases hh
  | mount h' ns ss =>
    cases hh
    rw [Node.process] at hp
    simp only [M.bind_eq_some, M.run_pure, Option.some.injEq, Prod.mk.injEq] at hp
    obtain ⟨⟨ns₁, o₁⟩, k₁, h1, h', k₂, h2, ⟨rfl, rfl⟩, rfl⟩ := hp
    rw [← afterRun_clock h2]; rfl
  | attached h' ns ss inbox =>
    cases hh
    cases inbox with
    | nil =>
      rw [Node.process] at hp
      simp only [M.bind_eq_some, M.run_pure, Option.some.injEq, Prod.mk.injEq] at hp
      obtain ⟨⟨ns₁, o₁⟩, k₁, h1, h', k₂, h2, ⟨rfl, rfl⟩, rfl⟩ := hp
      rw [← afterRun_clock h2]; rfl
    | cons a inbox =>
      obtain ⟨ps, ss', closed⟩ := a
      rw [Node.process] at hp
      simp only [M.bind_eq_some, M.run_pure, Option.some.injEq, Prod.mk.injEq] at hp
      obtain ⟨⟨ns₁, o₁⟩, k₁, h1, ⟨ps₁, o₂⟩, k₂, h2, h', k₃, h3, ⟨rfl, rfl⟩, rfl⟩ := hp
      rw [← afterRun_clock h3]; rfl

theorem Node.history_head [DecidableEq L] {e : Env} {k k' : Nat} {n n' : Node σ L} {h : MountHead}
    (hh : n.mountHead = some h) {log : List (Event Run)} (hist : History e k n log k' n') :
    n'.mountHead = some { h with lastActivity := lastActive e whenConsumed h.lastActivity log } := by
  have := history_activity hist (fun n => n.mountHead.map (·.lastActivity)) (fun m =>
    ∃ h', m.mountHead = some h' ∧ h'.name = h.name ∧ h'.descr = h.descr ∧ h'.maxInactivity = h.maxInactivity) ?_ ?_
    ⟨h, hh, rfl, rfl, rfl⟩ (t := h.lastActivity) (by simp [hh])
  · obtain ⟨⟨h', h1, h2, h3, h4⟩, h5⟩ := this
    rw [h1] at h5 ⊢
    simp only [Option.map_some, Option.some.injEq] at h5
    rw [← h2, ← h3, ← h4, ← h5]
  · rintro c r e k c' m k' ⟨h', h1, h2, h3, h4⟩ ht
    simp only [Component.take, M.bind_eq_some, M.run_pure, Option.some.injEq, Prod.mk.injEq] at ht
    obtain ⟨⟨q, o⟩, _, h5, ⟨rfl, rfl⟩, rfl⟩ := ht
    have := Node.process_mountHead h1 h5
    refine ⟨⟨_, this, h2, h3, h4⟩, ?_⟩
    rw [this, h1]
    simp only [Option.map_some]
    split <;> rfl
  · rintro c s d e k c' s' k' ⟨h', h1, h2, h3, h4⟩ ht
    have := Node.put_mountHead c s d _ _ _ _ ht
    simp only at this
    rw [this]
    exact ⟨⟨h', h1, h2, h3, h4⟩, rfl⟩

end Metrix
