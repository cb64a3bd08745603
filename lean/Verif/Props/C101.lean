import Verif.Props.C98
import Verif.Model.Build

/-!
# C101: groups without a name only organise

A panel or cockpit without a name and limit (`Plain` in `Verif.Spec.Reorder`) can be left out: its parts can be added where it would have
been added.
-/

namespace Metrix
variable {σ L : Type}

/-! ## In panels -/

theorem Panel.Reordered.asHandlers (h : PanelHead L) (qs : List (Panel σ L)) : ∀ (ps : List (Panel σ L)) (hs : List (Handler σ L))
    (ss : List (Snapshooter σ L)), Panel.Reordered (.mk h (ps ++ qs) hs ss) (.mk h ps (qs.map .panel ++ hs) ss) := by
  induction qs with
  | nil =>
    intro ps hs ss
    rw [List.append_nil]
    exact .refl _
  | cons q qs ih =>
    intro ps hs ss
    have := ih (ps ++ [q]) hs ss
    rw [List.append_assoc] at this
    exact .trans this (.handler h (.refl q) (.refl ps) (.refl _) (.refl ss))

theorem HandlersReordered.swapped : ∀ ks hs : List (Handler σ L), HandlersReordered (ks ++ hs) (hs ++ ks)
  | [], hs => by rw [List.append_nil]; exact .refl hs
  | k :: ks, hs => by
    refine .trans (.cons (.refl k) (.swapped ks hs)) (.trans (.last k (hs ++ ks)) ?_)
    rw [List.append_assoc]
    exact .prepend hs (.symm (.last k ks))

/-- All parts of a group can be in the panel that it was added to. -/
theorem Panel.Reordered.ungrouped {h g : PanelHead L} (hg : g.Plain) (hl : g.labelFilter = h.labelFilter ∨ g.labelFilter = .acceptAll)
    (ps qs : List (Panel σ L)) (hs ks : List (Handler σ L)) (ss ts : List (Snapshooter σ L)) :
    Panel.Reordered (.mk h (ps ++ [.mk g qs ks ts]) hs ss) (.mk h (ps ++ qs) (hs ++ ks) (ss ++ ts)) := by
  have h1 : Panel.Reordered (.mk g qs ks ts) (.mk g [] (qs.map .panel ++ ks) ts) := Panel.Reordered.asHandlers g qs [] ks ts
  refine .trans (.handler h h1 (.refl ps) (.refl hs) (.refl ss))
    (.trans (.ungroup hg hl (.refl ps) (.refl _) (.refl hs) (.refl ss) (.refl ts)) (.symm ?_))
  refine .trans (Panel.Reordered.asHandlers h qs ps (hs ++ ks) (ss ++ ts)) (.mk h (.refl ps) ?_ (.refl _))
  rw [List.append_assoc]
  exact .prepend _ (.swapped hs ks)

theorem Panel.addsPieces (xs : List (Piece σ L)) : ∃ qs ks ts, ∀ (h : PanelHead L) ps hs ss,
    xs.foldl Panel.add (.mk h ps hs ss) = .mk h (ps ++ qs) (hs ++ ks) (ss ++ ts) := by
  induction xs with
  | nil => exact ⟨[], [], [], fun _ _ _ _ => by simp⟩
  | cons x xs ih =>
    obtain ⟨qs, ks, ts, ih⟩ := ih
    cases x with
    | panel x => exact ⟨x :: qs, ks, ts, fun h ps hs ss => by simp [Panel.add, Panel.addPanel, ih]⟩
    | handler x => exact ⟨qs, x :: ks, ts, fun h ps hs ss => by simp [Panel.add, Panel.addHandler, ih]⟩
    | snapshooter x => exact ⟨qs, ks, x :: ts, fun h ps hs ss => by simp [Panel.add, Panel.addSnapshooter, ih]⟩

theorem Panel.Reordered.builtOf {parts : List (PanelStep σ L)} (ha : ∀ a ∈ parts, a.Adds) :
    ∃ xs : List (Piece σ L), ∀ p : Panel σ L, (parts.foldl Panel.with_ p).Reordered (xs.foldl Panel.add p) := by
  have adds : ∀ (xs : List (Piece σ L)) {p q : Panel σ L}, p.Reordered q → (xs.foldl Panel.add p).Reordered (xs.foldl Panel.add q) := by
    intro xs
    induction xs with
    | nil => exact fun h => h
    | cons x xs ih => exact fun h => ih (h.add x)
  induction parts with
  | nil => exact ⟨[], fun p => .refl p⟩
  | cons a parts ih =>
    obtain ⟨xs, ih⟩ := ih fun b hb => ha b (List.mem_cons_of_mem _ hb)
    obtain ⟨x, hx⟩ := Panel.Reordered.with_ (ha a List.mem_cons_self)
    exact ⟨x :: xs, fun p => (ih (p.with_ a)).trans (adds xs (hx p))⟩

/-- Parts may be added to a panel, or to a group that is added to the panel: a panel without name and limit that accepts all labels or has
the same filter as the panel around it. -/
theorem C101_in_panel (p : Panel σ L) {g : PanelHead L} (hg : g.Plain) (hl : g.labelFilter = p.head.labelFilter ∨ g.labelFilter = .acceptAll)
    {parts : List (PanelStep σ L)} (ha : ∀ a ∈ parts, a.Adds) :
    (p.addPanel (parts.foldl Panel.with_ (.mk g [] [] []))).Reordered (parts.foldl Panel.with_ p) := by
  obtain ⟨xs, hx⟩ := Panel.Reordered.builtOf ha
  obtain ⟨qs, ks, ts, hq⟩ := Panel.addsPieces xs
  have h1 := hx (.mk g [] [] [])
  have h2 := hx p
  obtain ⟨h, ps, hs, ss⟩ := p
  rw [hq] at h1 h2
  refine .trans (.mk h ((PanelsReordered.refl ps).append (.cons h1 .nil)) (.refl hs) (.refl ss)) (.trans ?_ h2.symm)
  exact .ungrouped hg hl ps ([] ++ qs) hs ([] ++ ks) ss ([] ++ ts)

/-- A panel may be added to a panel with `add_panel` or with `add_handler`. -/
theorem C101_panel_as_handler (p q : Panel σ L) : (p.addPanel q).Reordered (p.addHandler (.panel q)) := by
  obtain ⟨h, ps, hs, ss⟩ := p
  exact .trans (.handler h (.refl q) (.refl ps) (.refl hs) (.refl ss)) (.mk h (.refl ps) (.last _ hs) (.refl ss))

/-! ## In cockpits and processors -/

theorem Panel.Reordered.withHandler {a : PanelStep σ L} {x : Handler σ L} (ha : a.asHandler = some x) (p : Panel σ L) :
    (p.with_ a).Reordered (p.addHandler x) := by
  obtain ⟨h, ps, hs, ss⟩ := p
  cases a with
  | text _ => cases ha
  | activity _ => cases ha
  | snapshooter _ => cases ha
  | counter a =>
    cases ha
    cases e : h.counter with
    | some _ => simp only [Panel.with_, Panel.addCounter, e]; exact .refl _
    | none =>
      simp only [Panel.with_, Panel.addCounter, e]
      exact .placed (by have := PanelHead.Gives.counter (σ := σ) h a; rwa [← e] at this) ps hs ss
  | gauge a =>
    cases ha
    cases e : h.gauge with
    | some _ => simp only [Panel.with_, Panel.addGauge, e]; exact .refl _
    | none =>
      simp only [Panel.with_, Panel.addGauge, e]
      exact .placed (by have := PanelHead.Gives.gauge (σ := σ) h a; rwa [← e] at this) ps hs ss
  | meter a =>
    cases ha
    cases e : h.meter with
    | some _ => simp only [Panel.with_, Panel.addMeter, e]; exact .refl _
    | none =>
      simp only [Panel.with_, Panel.addMeter, e]
      exact .placed (by have := PanelHead.Gives.meter (σ := σ) h a; rwa [← e] at this) ps hs ss
  | histogram a =>
    cases ha
    cases e : h.histogram with
    | some _ => simp only [Panel.with_, Panel.addHistogram, e]; exact .refl _
    | none =>
      simp only [Panel.with_, Panel.addHistogram, e]
      exact .placed (by have := PanelHead.Gives.histogram (σ := σ) h a; rwa [← e] at this) ps hs ss
  | instrument i => cases ha; exact .refl _
  | panel x => cases ha; exact C101_panel_as_handler (.mk h ps hs ss) x
  | handler x => cases ha; exact .refl _

theorem Panel.Reordered.ofHandlers : ∀ {parts : List (PanelStep σ L)}, (∀ a ∈ parts, a.asHandler ≠ none) → ∀ (g : PanelHead L)
    (ks : List (Handler σ L)), Panel.Reordered (parts.foldl Panel.with_ (.mk g [] ks [])) (.mk g [] (ks ++ parts.filterMap (·.asHandler)) []) := by
  intro parts
  induction parts with
  | nil =>
    intro _ g ks
    rw [List.filterMap_nil, List.append_nil]
    exact .refl _
  | cons a parts ih =>
    intro ha g ks
    cases e : a.asHandler with
    | none => exact absurd e (ha a List.mem_cons_self)
    | some x =>
      have adds : ∀ (xs : List (PanelStep σ L)), (∀ a ∈ xs, a.asHandler ≠ none) → ∀ {p q : Panel σ L}, p.Reordered q →
          (xs.foldl Panel.with_ p).Reordered (xs.foldl Panel.with_ q) := by
        intro xs
        induction xs with
        | nil => intro _ p q h; exact h
        | cons b xs ih =>
          intro hb p q h
          refine ih (fun c hc => hb c (List.mem_cons_of_mem _ hc)) ?_
          cases e : b.asHandler with
          | none => exact absurd e (hb b List.mem_cons_self)
          | some y => exact .trans (.withHandler e p) (.trans (h.add (.handler y)) (.symm (.withHandler e q)))
      have hb : ∀ b ∈ parts, b.asHandler ≠ none := fun b hb => ha b (List.mem_cons_of_mem _ hb)
      rw [List.filterMap_cons, e]
      refine .trans (adds parts hb (.withHandler e (.mk g [] ks []))) ?_
      have := ih hb g (ks ++ [x])
      rw [List.append_assoc] at this
      exact this

theorem HandlersReordered.grouped (hs : List (Handler σ L)) {g : PanelHead L} (hg : g.Plain) (hl : g.labelFilter = .acceptAll)
    {parts : List (PanelStep σ L)} (ha : ∀ a ∈ parts, a.asHandler ≠ none) :
    HandlersReordered (hs ++ [.panel (parts.foldl Panel.with_ (.mk g [] [] []))]) (hs ++ parts.filterMap (·.asHandler)) := by
  refine .prepend hs (.trans (.cons (.panel (.ofHandlers ha g [])) .nil) ?_)
  have := HandlersReordered.panel hg hl (.refl ([] ++ parts.filterMap (·.asHandler))) (.nil (σ := σ))
  rw [List.append_nil] at this
  exact this

theorem ProcessorState.addHandlers (s : ProcessorState σ L) (ks : List (Handler σ L)) :
    ks.foldl ProcessorState.addHandler s = { s with handlers := s.handlers ++ ks } := by
  induction ks generalizing s with
  | nil => simp
  | cons k ks ih => simp [ih, ProcessorState.addHandler]

theorem Cockpit.addHandlers (c : Cockpit σ L) (ks : List (Handler σ L)) :
    ks.foldl Cockpit.addHandler c = { c with handlers := c.handlers ++ ks } := by
  induction ks generalizing c with
  | nil => simp
  | cons k ks ih => simp [ih, Cockpit.addHandler]

/-- Parts may be added to a processor, or to a group that is added to the processor: a panel without name and limit that accepts all
labels. -/
theorem C101_in_processor (s : ProcessorState σ L) {g : PanelHead L} (hg : g.Plain) (hl : g.labelFilter = .acceptAll)
    {parts : List (PanelStep σ L)} (ha : ∀ a ∈ parts, a.asHandler ≠ none) :
    (s.addHandler (.panel (parts.foldl Panel.with_ (.mk g [] [] [])))).Reordered
      ((parts.filterMap (·.asHandler)).foldl ProcessorState.addHandler s) := by
  rw [ProcessorState.addHandlers]
  exact ⟨rfl, rfl, rfl, .refl _, .grouped _ hg hl ha, .refl _⟩

/-- The same for cockpits. -/
theorem C101_in_cockpit (c : Cockpit σ L) {g : PanelHead L} (hg : g.Plain) (hl : g.labelFilter = .acceptAll)
    {parts : List (PanelStep σ L)} (ha : ∀ a ∈ parts, a.asHandler ≠ none) :
    (c.addHandler (.panel (parts.foldl Panel.with_ (.mk g [] [] [])))).Reordered
      ((parts.filterMap (·.asHandler)).foldl Cockpit.addHandler c) := by
  rw [Cockpit.addHandlers]
  exact ⟨rfl, .refl _, .grouped _ hg hl ha, .refl _⟩

theorem HandlersReordered.cockpitGrouped (hs : List (Handler σ L)) {c : Cockpit σ L} (hc : c.head.Plain) (hs' : c.snapshooters = []) :
    HandlersReordered (hs ++ [c.toHandler]) (hs ++ (c.handlers ++ c.panels.map .panel)) := by
  refine .prepend hs ?_
  have := HandlersReordered.cockpit hc (.refl c.panels) (.refl c.handlers) (.nil (σ := σ))
  rw [List.append_nil] at this
  unfold Cockpit.toHandler
  rw [hs']
  exact this

/-- A cockpit without name and limit that is added to a processor as a handler is such a group, too. -/
theorem C101_cockpit_in_processor (s : ProcessorState σ L) {c : Cockpit σ L} (hc : c.head.Plain) (hs : c.snapshooters = []) :
    (s.addHandler c.toHandler).Reordered ((c.handlers ++ c.panels.map Handler.panel).foldl ProcessorState.addHandler s) := by
  rw [ProcessorState.addHandlers]
  exact ⟨rfl, rfl, rfl, .refl _, .cockpitGrouped _ hc hs, .refl _⟩

theorem C101_cockpit_in_cockpit (d : Cockpit σ L) {c : Cockpit σ L} (hc : c.head.Plain) (hs : c.snapshooters = []) :
    (d.addHandler c.toHandler).Reordered ((c.handlers ++ c.panels.map Handler.panel).foldl Cockpit.addHandler d) := by
  rw [Cockpit.addHandlers]
  exact ⟨rfl, .refl _, .cockpitGrouped _ hc hs, .refl _⟩

theorem C101_cockpit_in_panel (p : Panel σ L) {c : Cockpit σ L} (hc : c.head.Plain) (hs : c.snapshooters = []) :
    (p.addHandler c.toHandler).Reordered ((c.handlers ++ c.panels.map Handler.panel).foldl Panel.addHandler p) := by
  have : ∀ (ks : List (Handler σ L)) h ps hs ss, ks.foldl Panel.addHandler (.mk h ps hs ss) = .mk h ps (hs ++ ks) ss := by
    intro ks
    induction ks with
    | nil => simp
    | cons k ks ih => simp [ih, Panel.addHandler]
  obtain ⟨h, ps, hs', ss⟩ := p
  rw [this]
  exact .mk h (.refl ps) (.cockpitGrouped hs' hc hs) (.refl ss)

/-! ## What such processors do -/

/-- The same happens to two processors, of which one has a group and the other one the parts of that group. Then both show the same, in
another order, or both panic, and both report the same numbers in total. -/
theorem C101_snapshots [DecidableEq L] [Custom σ L] (hc : CustomStill σ L) (ha : CustomFrames σ L) {e : Env} (mono : e.Mono)
    {s : ProcessorState σ L} {p p' q q' : Processor σ L} {g : PanelHead L} (hg : g.Plain) (hl : g.labelFilter = .acceptAll)
    {parts : List (PanelStep σ L)} (hp : ∀ a ∈ parts, a.asHandler ≠ none)
    (hs : p.state = s.addHandler (.panel (parts.foldl Panel.with_ (.mk g [] [] []))))
    (hs' : p'.state = (parts.filterMap (·.asHandler)).foldl ProcessorState.addHandler s)
    {log log' : List (Nat × Call σ L × Reply)} {hh hh' : List (Happening σ L)} (h : Happened e p log hh q) (h' : Happened e p' log' hh' q')
    (hhw : HappeningsReordered hh hh') (hr : RingsOk p.state.instruments) (hr' : RingsOk p'.state.instruments)
    (hrs : ∀ a ∈ hh, RingsOk a.instruments) (hrs' : ∀ a ∈ hh', RingsOk a.instruments) (ho : MomentsInOrder log)
    (ho' : MomentsInOrder log') {n : Nat} (hn : ∀ c ∈ log, c.1 ≤ n) (hn' : ∀ c ∈ log', c.1 ≤ n) (into : Snapshot) :
    totalsOf log = totalsOf log' ∧ Option.Rel Snapshot.Reordered ((q.putSnapshot into false (e.at n) 0).map (·.1.2))
      ((q'.putSnapshot into false (e.at n) 0).map (·.1.2)) := by
  have hw : p.state.Reordered p'.state := by
    rw [hs, hs']
    exact C101_in_processor s hg hl hp
  exact ⟨C98_totals hc mono h h' hw hhw hr hr' hrs hrs' ho ho', C98_snapshots hc ha mono h h' hw hhw hr hr' hrs hrs' ho ho' hn hn' (.refl into)⟩

/-! ## Such groups -/

/-- A new panel that accepts all labels is such a group, until it gets a name or a limit. -/
theorem C101_new_panel [DecidableEq L] (e : Env) (k : Nat) : ∃ g : PanelHead L, g.Plain ∧ g.labelFilter = .acceptAll ∧
    Panel.acceptAll (σ := σ) e k = some (.mk g [] [] [], k + 1) :=
  ⟨{ labelFilter := .acceptAll, activity := { lastActivity := e.clock k } }, ⟨rfl, rfl, rfl, rfl, rfl, rfl⟩, rfl, rfl⟩

/-- So is a new cockpit without a name. -/
theorem C101_new_cockpit (e : Env) (k : Nat) : ∃ c : Cockpit σ L, c.head.Plain ∧ c.snapshooters = [] ∧
    Cockpit.withoutName e k = some (c, k + 1) :=
  ⟨{ head := { activity := { lastActivity := e.clock k } } }, ⟨rfl, rfl⟩, rfl, rfl⟩

/-- Titles, descriptions and whether to show the activity do not matter. -/
theorem C101_settings (g : PanelHead L) (hg : g.Plain) (d : Descr) (b : Bool) :
    PanelHead.Plain { g with descr := d, activity := { g.activity with show_ := b } } :=
  ⟨hg.name, hg.limit, hg.counter, hg.gauge, hg.meter, hg.histogram⟩

/-! ## Examples -/

/-- A group. -/
def organisingHead : PanelHead Nat := { labelFilter := .acceptAll, activity := ⟨0, none, true⟩ }

theorem organising_plain : organisingHead.Plain := ⟨rfl, rfl, rfl, rfl, rfl, rfl⟩

/-- What is in the group: two counters and a panel. -/
def organisedParts : List (PanelStep Empty Nat) := [.counter (.new { name := "x" }), .counter (.new { name := "y" }), .panel (roomyPanel false "a")]

theorem organised_handlers : ∀ a ∈ organisedParts, a.asHandler ≠ none := by
  intro a ha
  simp only [organisedParts, List.mem_cons, List.not_mem_nil, or_false] at ha
  rcases ha with rfl | rfl | rfl <;> simp [PanelStep.asHandler]

/-- A processor with the group or with its parts. -/
def organisedProcessor (flat : Bool) : Processor Empty Nat where
  state := if flat then (organisedParts.filterMap (·.asHandler)).foldl ProcessorState.addHandler { name := some "p", activity := ⟨0, none, true⟩ }
    else ProcessorState.addHandler { name := some "p", activity := ⟨0, none, true⟩ } (.panel (organisedParts.foldl Panel.with_ (.mk organisingHead [] [] [])))
  receiver := { chan := { Channel.fresh (some 10) true [{ todo := [] }] with queue := [(0, .observation (.observedOneValue 1 (.signedInteger 5) 0))] } }

def organisedHappenings : List (Happening Empty Nat) := [.message 3 .processAll (.observation (.observedOneValue 1 (.signedInteger 5) 0))]

theorem organised_happens (flat : Bool)
    (h : (callsAt Processor.call ticking (organisedProcessor flat) [(3, .process 6 .processAll)]).isSome) :
    ∃ p' log, log.map (fun c => (c.1, c.2.1)) = [(3, .process 6 .processAll)] ∧
      Happened ticking (organisedProcessor flat) log organisedHappenings p' := by
  obtain ⟨p', log, h1, h2⟩ := callsAt_spec h
  refine ⟨p', log, h2, ?_⟩
  have calls : ∀ d ∈ log, d.1 = 3 ∧ ((∃ max, d.2.1 = .process max .processAll) ∨ d.2.1.IsSnapshot) := by
    intro d hd
    have : (d.1, d.2.1) ∈ log.map (fun c => (c.1, c.2.1)) := List.mem_map_of_mem hd
    rw [h2] at this
    simp only [List.mem_cons, Prod.mk.injEq, List.not_mem_nil, or_false] at this
    exact ⟨this.1, .inl ⟨6, this.2⟩⟩
  have sum : (log.map (·.2.1.polls)).sum = 6 := by
    have : log.map (·.2.1.polls) = (log.map (fun c => (c.1, c.2.1))).map (·.2.polls) := by rw [List.map_map]; rfl
    rw [this, h2]; rfl
  have := happened_quiet (p := organisedProcessor flat) rfl nofun calls h1
  rw [sum] at this
  cases flat <;> exact this

/-- With and without the group, the snapshots have the same values. -/
example : ∃ q log q' log', Happened ticking (organisedProcessor false) log organisedHappenings q ∧
    Happened ticking (organisedProcessor true) log' organisedHappenings q' ∧
    log ≠ [] ∧ totalsOf log = totalsOf log' ∧ ∀ n into, 3 ≤ n → Option.Rel (fun s s' : Snapshot => (Snapshot.values [] s).Perm (Snapshot.values [] s'))
      ((q.putSnapshot into false (ticking.at n) 0).map (·.1.2)) ((q'.putSnapshot into false (ticking.at n) 0).map (·.1.2)) := by
  obtain ⟨p₁, log₁, hl₁, h₁⟩ := organised_happens false (by decide +kernel)
  obtain ⟨p₂, log₂, hl₂, h₂⟩ := organised_happens true (by decide +kernel)
  have order : ∀ {log : List (Nat × Call Empty Nat × Reply)} {o : Call Empty Nat}, log.map (fun c => (c.1, c.2.1)) = [(3, o)] →
      MomentsInOrder log ∧ (∀ c ∈ log, c.1 = 3) ∧ log ≠ [] := by
    intro log o h
    obtain ⟨c, rfl⟩ := List.length_eq_one_iff.1 ((List.length_map _).symm.trans (congrArg List.length h))
    simp only [List.map_cons, List.map_nil, List.cons.injEq, Prod.mk.injEq] at h
    exact ⟨by simp [MomentsInOrder], by simp [h.1.1], by simp⟩
  have r₁ : RingsOk (organisedProcessor false).state.instruments := by
    rw [show (organisedProcessor false).state.instruments =
      [.counter { name := "x" }, .counter { name := "n" }, .counter { name := "y" }] from rfl]
    exact roomy_rings (by simp)
  have r₂ : RingsOk (organisedProcessor true).state.instruments := by
    rw [show (organisedProcessor true).state.instruments =
      [.counter { name := "x" }, .counter { name := "y" }, .counter { name := "n" }] from rfl]
    exact roomy_rings (by simp)
  have r₃ : ∀ a ∈ organisedHappenings, RingsOk a.instruments := by
    simp [organisedHappenings, Happening.instruments, Message.instruments, RingsOk]
  have hh : HappeningsReordered organisedHappenings organisedHappenings := .message 3 .processAll (.observation _) .nil
  have key := fun n (hn : 3 ≤ n) into => C101_snapshots emptyStill emptyFrames ticking_mono organising_plain rfl organised_handlers rfl rfl h₁ h₂ hh
    r₁ r₂ r₃ r₃ (order hl₁).1 (order hl₂).1 (n := n) (fun c hc => by rw [(order hl₁).2.1 c hc]; exact hn)
    (fun c hc => by rw [(order hl₂).2.1 c hc]; exact hn) into
  refine ⟨p₁, log₁, p₂, log₂, h₁, h₂, (order hl₁).2.2, (key 3 (Nat.le_refl 3) []).1, fun n into hn => ?_⟩
  have := (key n hn into).2
  revert this
  generalize (p₁.putSnapshot into false (ticking.at n) 0).map (·.1.2) = a
  generalize (p₂.putSnapshot into false (ticking.at n) 0).map (·.1.2) = b
  intro this
  cases this with
  | none => exact .none
  | some h => exact .some (C98_values h [])

/-- A counter and a snapshooter in a panel that accepts one label only, or in a group in that panel. -/
example (a : InstrumentAdapter Nat Counter) (x : Snapshooter Empty Nat) (p : Panel Empty Nat) :
    (p.addPanel (((Panel.mk organisingHead [] [] []).addCounter a).addSnapshooter x)).Reordered ((p.addCounter a).addSnapshooter x) :=
  C101_in_panel p organising_plain (.inr rfl) (parts := [.counter a, .snapshooter x]) (by simp [PanelStep.Adds])

/-- A group with a filter is not only a group: here it keeps the observation away from the counter. -/
example : ((Handler.panel (.mk { organisingHead with labelFilter := .acceptNone, counter := some (.new { name := "x" }) } [] [] [])).handle (σ := Empty)
      (.observedOne 1 0) ticking 0).map (·.1.2) = some 0 ∧
    ((Handler.panel (.mk { organisingHead with counter := some (.new { name := "x" }) } [] [] [])).handle (σ := Empty)
      (.observedOne 1 0) ticking 0).map (·.1.2) = some 1 := by
  decide +kernel

end Metrix
