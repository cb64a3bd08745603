import Verif.Proof.ReorderProcessor
import Verif.Props.C91

/-!
# C98: the order in which parts are added only changes the order in which they are shown

`p.Reordered q` (in `Verif.Spec.Reorder`): `q` has the same parts as `p`, in another order, at any depth.
-/

namespace Metrix
variable {σ L : Type}

/-- The same happens to both processors, which have the same parts in different orders, except that parts that are added one after the other
may be added in another order. Then both show the same, in another order, or both panic. -/
theorem C98_snapshots [DecidableEq L] [Custom σ L] (hc : CustomStill σ L) (ha : CustomFrames σ L) {e : Env}
    (mono : e.Mono) {p p' q q' : Processor σ L} {log log' : List (Nat × Call σ L × Reply)}
    {hs hs' : List (Happening σ L)} (h : Happened e p log hs q) (h' : Happened e p' log' hs' q') (hw : p.state.Reordered p'.state)
    (hhw : HappeningsReordered hs hs') (hr : RingsOk p.state.instruments) (hr' : RingsOk p'.state.instruments)
    (hrs : ∀ a ∈ hs, RingsOk a.instruments) (hrs' : ∀ a ∈ hs', RingsOk a.instruments) (ho : MomentsInOrder log)
    (ho' : MomentsInOrder log') {n : Nat} (hn : ∀ c ∈ log, c.1 ≤ n) (hn' : ∀ c ∈ log', c.1 ≤ n) {into into' : Snapshot}
    (hi : into.Reordered into') :
    Option.Rel Snapshot.Reordered ((q.putSnapshot into false (e.at n) 0).map (·.1.2))
      ((q'.putSnapshot into' false (e.at n) 0).map (·.1.2)) := by
  obtain ⟨y, h3, h4⟩ := h.plays hc mono p.state {} n ho hrs (moments_le hn) fun m _ => ProcessorState.alike_refl hr
  obtain ⟨y', h5, h6⟩ := h'.plays hc mono p'.state {} n ho' hrs' (moments_le hn') fun m _ => ProcessorState.alike_refl hr'
  have h7 := hhw.plays hc (e := e) {} hw
  rw [h3, h5] at h7
  cases h7 with
  | some h7 =>
    rw [h6.shown hc, h4.shown hc]
    have h8 := h7.1.put (hc.at e n) ha (e.at_frozen n) into into' 0 0
    revert h8
    generalize y.putSnapshot into false (e.at n) 0 = a
    generalize y'.putSnapshot into' false (e.at n) 0 = b
    intro h8
    cases h8 with
    | none => exact .none
    | some h8 => exact .some (h8.reordered hi)

/-- The runs report the same numbers in total. -/
theorem C98_totals [DecidableEq L] [Custom σ L] (hc : CustomStill σ L) {e : Env}
    (mono : e.Mono) {p p' q q' : Processor σ L} {log log' : List (Nat × Call σ L × Reply)}
    {hs hs' : List (Happening σ L)} (h : Happened e p log hs q) (h' : Happened e p' log' hs' q') (hw : p.state.Reordered p'.state)
    (hhw : HappeningsReordered hs hs') (hr : RingsOk p.state.instruments) (hr' : RingsOk p'.state.instruments)
    (hrs : ∀ a ∈ hs, RingsOk a.instruments) (hrs' : ∀ a ∈ hs', RingsOk a.instruments) (ho : MomentsInOrder log)
    (ho' : MomentsInOrder log') : totalsOf log = totalsOf log' := by
  obtain ⟨n₁, hn₁⟩ := exists_bound (log.map (·.1))
  obtain ⟨n₂, hn₂⟩ := exists_bound (log'.map (·.1))
  obtain ⟨y, h3, _⟩ := h.plays hc mono p.state {} n₁ ho hrs hn₁ fun m _ => ProcessorState.alike_refl hr
  obtain ⟨y', h5, _⟩ := h'.plays hc mono p'.state {} n₂ ho' hrs' hn₂ fun m _ => ProcessorState.alike_refl hr'
  have h7 := hhw.plays hc (e := e) {} hw
  rw [h3, h5] at h7
  cases h7 with
  | some h7 =>
    have := h7.2
    simp only [Tally.plus, Nat.zero_add, Tally.mk.injEq] at this
    revert this
    generalize totalsOf log = a
    generalize totalsOf log' = b
    rintro ⟨h8, h9, h10⟩
    obtain ⟨_, _, _⟩ := a
    obtain ⟨_, _, _⟩ := b
    simp_all

/-- The same for one panel alone, which sees observations and is asked for a snapshot, all at one moment: an observation updates as many
instruments, and the panels are still reorderings of each other. -/
theorem C98_panel_handles [DecidableEq L] [Custom σ L] (hc : CustomStill σ L) (e : Env) (m : Nat) {p p' : Panel σ L} (h : p.Reordered p')
    (o : Observation L) : Option.Rel (fun r r' => r.1.1.Reordered r'.1.1 ∧ r.1.2 = r'.1.2) (p.handle o (e.at m) 0) (p'.handle o (e.at m) 0) :=
  h.handle (hc.at e m) (e.at_frozen m) o 0 0

/-- And it shows the same in another order. -/
theorem C98_panel_shows [Custom σ L] (hc : CustomStill σ L) (ha : CustomFrames σ L) (e : Env) (m : Nat) {p p' : Panel σ L}
    (h : p.Reordered p') {into into' : Snapshot} (hi : into.Reordered into') :
    Option.Rel (fun r r' => r.1.2.Reordered r'.1.2) (p.putSnapshot false into (e.at m) 0) (p'.putSnapshot false into' (e.at m) 0) := by
  have := h.put (hc.at e m) ha (e.at_frozen m) into into' 0 0
  revert this
  generalize p.putSnapshot false into (e.at m) 0 = a
  generalize p'.putSnapshot false into' (e.at m) 0 = b
  intro h8
  cases h8 with
  | none => exact .none
  | some h8 => exact .some (h8.reordered hi)

/-- In reordered snapshots are the same values, equally often, and the same names lead to them. -/
theorem C98_values {s s' : Snapshot} (h : s.Reordered s') (path : List String) : (Snapshot.values path s).Perm (Snapshot.values path s') := by
  induction h generalizing path with
  | nil => exact .refl _
  | same x _ ih =>
    obtain ⟨n, v⟩ := x
    rw [Snapshot.values, Snapshot.values]
    exact (ih path).append_left _
  | group n _ _ ih1 ih2 =>
    rw [Snapshot.values, Snapshot.values, ItemKind.values, ItemKind.values]
    exact (ih1 _).append (ih2 path)
  | swap x y =>
    obtain ⟨n, v⟩ := x
    obtain ⟨m, w⟩ := y
    simp only [Snapshot.values]
    rw [← List.append_assoc, ← List.append_assoc]
    exact List.perm_append_comm.append_right _
  | trans _ _ ih1 ih2 => exact (ih1 path).trans (ih2 path)

/-- There are also the same groups, with reordered contents. -/
theorem C98_groups {s s' : Snapshot} (h : s.Reordered s') : ∀ {path : List String} {level : Snapshot}, Snapshot.Group path level s →
    ∃ level', Snapshot.Group path level' s' ∧ level.Reordered level'
  | [], _, hg => ⟨s', rfl, by cases hg; exact h⟩
  | n :: path, level, ⟨sub, hm, hg⟩ => by
    have key : ∃ sub' : Snapshot, (n, ItemKind.snapshot sub') ∈ s' ∧ Snapshot.Reordered sub sub' := by
      clear hg
      induction h generalizing sub with
      | nil => cases hm
      | same x _ ih =>
        rcases List.mem_cons.1 hm with rfl | hm
        · exact ⟨sub, List.mem_cons_self, .refl _⟩
        · obtain ⟨sub', h1, h2⟩ := ih sub hm
          exact ⟨sub', List.mem_cons_of_mem _ h1, h2⟩
      | group m h1 _ _ ih =>
        rcases List.mem_cons.1 hm with hm | hm
        · obtain ⟨rfl, hm⟩ := Prod.mk.inj hm
          cases hm
          exact ⟨_, List.mem_cons_self, h1⟩
        · obtain ⟨sub', h1, h2⟩ := ih sub hm
          exact ⟨sub', List.mem_cons_of_mem _ h1, h2⟩
      | swap x y => exact ⟨sub, (List.Perm.swap y x _).mem_iff.1 hm, .refl _⟩
      | trans _ _ ih1 ih2 =>
        obtain ⟨sub₁, h1, h2⟩ := ih1 sub hm
        obtain ⟨sub₂, h3, h4⟩ := ih2 sub₁ h1
        exact ⟨sub₂, h3, h2.trans h4⟩
    obtain ⟨sub', h1, h2⟩ := key
    obtain ⟨level', h3, h4⟩ := C98_groups h2 hg
    exact ⟨level', ⟨sub', h1, h3⟩, h4⟩

/-! ## Panels and cockpits that are made by adding parts -/

theorem Cockpit.Reordered.trans {p q r : Cockpit σ L} (h : p.Reordered q) (h' : q.Reordered r) : p.Reordered r :=
  ⟨h.head.trans h'.head, h.panels.trans h'.panels, h.handlers.trans h'.handlers, h.snapshooters.trans h'.snapshooters⟩

theorem SnapshootersReordered.last (x : Snapshooter σ L) : ∀ hs : List (Snapshooter σ L), SnapshootersReordered (x :: hs) (hs ++ [x])
  | [] => .refl _
  | y :: hs => .trans (.swap (.refl x) (.refl y) (.refl hs)) (.cons (.refl y) (.last x hs))

theorem Panel.Reordered.add (a : Piece σ L) : ∀ {p q : Panel σ L}, p.Reordered q → (p.add a).Reordered (q.add a)
  | _, _, .mk h h1 h2 h3 => by
    cases a with
    | panel x => exact .mk h (h1.append (.refl [x])) h2 h3
    | handler x => exact .mk h h1 (h2.append (.refl [x])) h3
    | snapshooter x => exact .mk h h1 h2 (h3.append (.refl [x]))
  | _, _, .place g h1 h2 h3 => by
    cases a with
    | panel x => exact .place g (h1.append (.refl [x])) h2 h3
    | handler x => exact .place g h1 (h2.append (.refl [x])) h3
    | snapshooter x => exact .place g h1 h2 (h3.append (.refl [x]))
  | _, _, .handler (p := y) (ps := ps) h h1 h2 h3 h4 => by
    cases a with
    | panel x =>
      refine .trans (.mk h ?_ (.refl _) (.refl _)) (.handler h h1 (h2.append (.refl [x])) h3 h4)
      rw [List.append_assoc, List.append_assoc]
      exact (PanelsReordered.refl ps).append (.swap (.refl _) (.refl _) .nil)
    | handler x => exact .handler h h1 h2 (h3.append (.refl [x])) h4
    | snapshooter x => exact .handler h h1 h2 h3 (h4.append (.refl [x]))
  | _, _, .ungroup (h := h) (g := g) (ss' := ss') hg hl h1 h2 h3 h4 h5 => by
    cases a with
    | panel x => exact .ungroup hg hl (h1.append (.refl [x])) h2 h3 h4 h5
    | handler x =>
      have := Panel.Reordered.ungroup hg hl h1 h2 (h3.append (.refl [x])) h4 h5
      rw [← List.append_assoc] at this
      exact this
    | snapshooter x =>
      refine .trans (.ungroup hg hl h1 h2 h3 (h4.append (.refl [x])) h5) (.mk h (.refl _) (.refl _) ?_)
      rw [List.append_assoc, List.append_assoc]
      exact (SnapshootersReordered.refl ss').append (.last x _)
  | _, _, .symm h => .symm (Panel.Reordered.add a h)
  | _, _, .trans h h' => .trans (Panel.Reordered.add a h) (Panel.Reordered.add a h')

theorem HandlersReordered.last (x : Handler σ L) : ∀ hs : List (Handler σ L), HandlersReordered (x :: hs) (hs ++ [x])
  | [] => .refl _
  | y :: hs => .trans (.swap (.refl x) (.refl y) (.refl hs)) (.cons (.refl y) (.last x hs))

/-- To fill the place that the panel has for an instrument is as good as adding a handler. -/
theorem Panel.Reordered.placed {h h' : PanelHead L} {x : Handler σ L} (g : h'.Gives x h) (ps : List (Panel σ L)) (hs : List (Handler σ L))
    (ss : List (Snapshooter σ L)) : Panel.Reordered (.mk h' ps hs ss) (.mk h ps (hs ++ [x]) ss) :=
  .trans (.place g (.refl ps) (.refl hs) (.refl ss)) (.mk h (.refl ps) (.last x hs) (.refl ss))

theorem Panel.Reordered.with_ {a : PanelStep σ L} (ha : a.Adds) : ∃ x : Piece σ L, ∀ p : Panel σ L, (p.with_ a).Reordered (p.add x) := by
  cases a with
  | text _ => cases ha
  | activity _ => cases ha
  | counter a =>
    refine ⟨.handler (.instrument (a.map .counter)), fun ⟨h, ps, hs, ss⟩ => ?_⟩
    cases e : h.counter with
    | some _ => simp only [Panel.with_, Panel.addCounter, e]; exact .refl _
    | none =>
      simp only [Panel.with_, Panel.addCounter, e]
      exact .placed (by have := PanelHead.Gives.counter (σ := σ) h a; rwa [← e] at this) ps hs ss
  | gauge a =>
    refine ⟨.handler (.gauge a), fun ⟨h, ps, hs, ss⟩ => ?_⟩
    cases e : h.gauge with
    | some _ => simp only [Panel.with_, Panel.addGauge, e]; exact .refl _
    | none =>
      simp only [Panel.with_, Panel.addGauge, e]
      exact .placed (by have := PanelHead.Gives.gauge (σ := σ) h a; rwa [← e] at this) ps hs ss
  | meter a =>
    refine ⟨.handler (.instrument (a.map .meter)), fun ⟨h, ps, hs, ss⟩ => ?_⟩
    cases e : h.meter with
    | some _ => simp only [Panel.with_, Panel.addMeter, e]; exact .refl _
    | none =>
      simp only [Panel.with_, Panel.addMeter, e]
      exact .placed (by have := PanelHead.Gives.meter (σ := σ) h a; rwa [← e] at this) ps hs ss
  | histogram a =>
    refine ⟨.handler (.instrument (a.map .histogram)), fun ⟨h, ps, hs, ss⟩ => ?_⟩
    cases e : h.histogram with
    | some _ => simp only [Panel.with_, Panel.addHistogram, e]; exact .refl _
    | none =>
      simp only [Panel.with_, Panel.addHistogram, e]
      exact .placed (by have := PanelHead.Gives.histogram (σ := σ) h a; rwa [← e] at this) ps hs ss
  | instrument i => exact ⟨.handler (.instrument (.new i)), fun _ => .refl _⟩
  | panel x => exact ⟨.panel x, fun _ => .refl _⟩
  | handler x => exact ⟨.handler x, fun _ => .refl _⟩
  | snapshooter x => exact ⟨.snapshooter x, fun _ => .refl _⟩

theorem Cockpit.Reordered.add {p q : Cockpit σ L} (h : p.Reordered q) (a : Piece σ L) : (p.add a).Reordered (q.add a) := by
  cases a with
  | panel x => exact h.addPanel (.refl x)
  | handler x => exact ⟨h.head, h.panels, h.handlers.append (.refl [x]), h.snapshooters⟩
  | snapshooter x => exact ⟨h.head, h.panels, h.handlers, h.snapshooters.append (.refl [x])⟩

theorem Panel.Reordered.add_swap (p : Panel σ L) (a b : Piece σ L) : ((p.add b).add a).Reordered ((p.add a).add b) := by
  obtain ⟨h, ps, hs, ss⟩ := p
  cases a with
  | panel x =>
    cases b with
    | panel y =>
      refine .mk h ?_ (.refl _) (.refl _)
      rw [List.append_assoc, List.append_assoc]
      exact (PanelsReordered.refl ps).append (.swap (.refl _) (.refl _) .nil)
    | handler y => exact .refl _
    | snapshooter y => exact .refl _
  | handler x =>
    cases b with
    | panel y => exact .refl _
    | handler y =>
      refine .mk h (.refl _) ?_ (.refl _)
      rw [List.append_assoc, List.append_assoc]
      exact (HandlersReordered.refl hs).append (.swap (.refl _) (.refl _) .nil)
    | snapshooter y => exact .refl _
  | snapshooter x =>
    cases b with
    | panel y => exact .refl _
    | handler y => exact .refl _
    | snapshooter y =>
      refine .mk h (.refl _) (.refl _) ?_
      rw [List.append_assoc, List.append_assoc]
      exact (SnapshootersReordered.refl ss).append (.swap (.refl _) (.refl _) .nil)

/-- All that can be added to a panel may be added in any order. -/
theorem C98_panel_built (p : Panel σ L) {parts parts' : List (PanelStep σ L)} (h : parts.Perm parts') (ha : ∀ a ∈ parts, a.Adds) :
    (parts.foldl Panel.with_ p).Reordered (parts'.foldl Panel.with_ p) := by
  have step : ∀ {p q : Panel σ L} {a : PanelStep σ L}, a.Adds → p.Reordered q → (p.with_ a).Reordered (q.with_ a) := by
    intro p q a ha h
    obtain ⟨x, hx⟩ := Panel.Reordered.with_ ha
    exact (hx p).trans ((h.add x).trans (hx q).symm)
  have adds : ∀ (parts : List (PanelStep σ L)) {p q : Panel σ L}, (∀ a ∈ parts, a.Adds) → p.Reordered q →
      (parts.foldl Panel.with_ p).Reordered (parts.foldl Panel.with_ q) := by
    intro parts
    induction parts with
    | nil => exact fun _ h => h
    | cons a parts ih => exact fun ha h => ih (fun b hb => ha b (List.mem_cons_of_mem _ hb)) (step (ha a List.mem_cons_self) h)
  induction h generalizing p with
  | nil => exact .refl p
  | cons a _ ih => exact ih (p.with_ a) fun b hb => ha b (List.mem_cons_of_mem _ hb)
  | swap a b parts =>
    refine adds parts (fun c hc => ha c (List.mem_cons_of_mem _ (List.mem_cons_of_mem _ hc))) ?_
    obtain ⟨x, hx⟩ := Panel.Reordered.with_ (ha a (List.mem_cons_of_mem _ List.mem_cons_self))
    obtain ⟨y, hy⟩ := Panel.Reordered.with_ (ha b List.mem_cons_self)
    refine (hx _).trans (((hy p).add x).trans (.trans (.add_swap p x y) ?_))
    exact (((hx p).add y).symm).trans (hy _).symm
  | trans h1 _ ih1 ih2 => exact (ih1 p ha).trans (ih2 p fun a h => ha a (h1.mem_iff.2 h))

/-- The parts of a cockpit may be added in any order, if no two panels have the same name. -/
theorem C98_cockpit_built (c : Cockpit σ L) {parts parts' : List (Piece σ L)} (h : parts.Perm parts') (hn : parts.Pairwise Piece.Apart) :
    (parts.foldl Cockpit.add c).Reordered (parts'.foldl Cockpit.add c) := by
  have adds : ∀ (parts : List (Piece σ L)) {p q : Cockpit σ L}, p.Reordered q →
      (parts.foldl Cockpit.add p).Reordered (parts.foldl Cockpit.add q) := by
    intro parts
    induction parts with
    | nil => exact fun h => h
    | cons a parts ih => exact fun h => ih (h.add a)
  have panel : ∀ (c : Cockpit σ L) (p : Panel σ L) (a : Piece σ L), (∀ q, a ≠ .panel q) → (c.addPanel p).add a = (c.add a).addPanel p := by
    intro c p a ha
    cases a with
    | panel q => exact absurd rfl (ha q)
    | handler x =>
      show (c.addPanel p).addHandler x = (c.addHandler x).addPanel p
      unfold Cockpit.addPanel Cockpit.addHandler
      split
      · split <;> rfl
      · rfl
    | snapshooter x =>
      show (c.addPanel p).addSnapshooter x = (c.addSnapshooter x).addPanel p
      unfold Cockpit.addPanel Cockpit.addSnapshooter
      split
      · split <;> rfl
      · rfl
  have symm : ∀ {a b : Piece σ L}, a.Apart b → b.Apart a := by
    intro a b h
    cases a <;> cases b <;> first
      | exact Metrix.Apart.symm h
      | trivial
  induction h generalizing c with
  | nil => exact .refl c
  | cons a _ ih => exact ih (c.add a) (List.pairwise_cons.1 hn).2
  | swap a b parts =>
    refine adds parts ?_
    have hab : b.Apart a := (List.pairwise_cons.1 hn).1 a List.mem_cons_self
    cases a with
    | panel x =>
      cases b with
      | panel y => exact addPanels_swap c hab
      | handler y => rw [show (c.add (.panel x)).add (.handler y) = (c.add (.handler y)).add (.panel x) from panel c x _ nofun]; exact .refl _
      | snapshooter y =>
        rw [show (c.add (.panel x)).add (.snapshooter y) = (c.add (.snapshooter y)).add (.panel x) from panel c x _ nofun]; exact .refl _
    | handler x =>
      cases b with
      | panel y => rw [show (c.add (.panel y)).add (.handler x) = (c.add (.handler x)).add (.panel y) from panel c y _ nofun]; exact .refl _
      | handler y =>
        refine ⟨rfl, .refl _, ?_, .refl _⟩
        simp only [Cockpit.add, Cockpit.addHandler, List.append_assoc]
        exact (HandlersReordered.refl _).append (.swap (.refl _) (.refl _) .nil)
      | snapshooter y => exact .refl _
    | snapshooter x =>
      cases b with
      | panel y =>
        rw [show (c.add (.panel y)).add (.snapshooter x) = (c.add (.snapshooter x)).add (.panel y) from panel c y _ nofun]; exact .refl _
      | handler y => exact .refl _
      | snapshooter y =>
        refine ⟨rfl, .refl _, .refl _, ?_⟩
        simp only [Cockpit.add, Cockpit.addSnapshooter, List.append_assoc]
        exact (SnapshootersReordered.refl _).append (.swap (.refl _) (.refl _) .nil)
  | trans h1 _ ih1 ih2 => exact (ih1 c hn).trans (ih2 c ((h1.pairwise_iff symm).1 hn))

/-! ## Examples -/

/-- Two counters and a panel are added in another order. The first counter gets the place for it, the second one becomes a handler. -/
example (p q : Panel Empty Nat) (a b : InstrumentAdapter Nat Counter) :
    (((p.addCounter a).addCounter b).addPanel q).Reordered (((p.addPanel q).addCounter b).addCounter a) :=
  C98_panel_built p (parts := [.counter a, .counter b, .panel q]) (parts' := [.panel q, .counter b, .counter a])
    (List.reverse_perm [PanelStep.panel q, .counter b, .counter a]) (by simp [PanelStep.Adds])

/-- Then they are not the same panels, and show the same in another order. -/
example : ∃ p q : Panel Empty Nat, p ≠ q ∧ p.Reordered q :=
  ⟨((Panel.mk { labelFilter := .acceptAll, activity := ⟨0, none, true⟩ } [] [] []).addCounter (.new { name := "a" })).addCounter (.new { name := "b" }),
    ((Panel.mk { labelFilter := .acceptAll, activity := ⟨0, none, true⟩ } [] [] []).addCounter (.new { name := "b" })).addCounter (.new { name := "a" }), by
      intro h
      injection h with h
      injection h with _ _ _ h
      injection h with h
      injection h with _ h
      injection h with h
      revert h
      decide,
    C98_panel_built (.mk { labelFilter := .acceptAll, activity := ⟨0, none, true⟩ } [] [] []) (parts := [.counter (.new { name := "a" }), .counter (.new { name := "b" })])
      (.swap _ _ _) (by simp [PanelStep.Adds])⟩

/-- Two panels and a handler are added in another order. -/
example (c : Cockpit Empty Nat) (p q : Panel Empty Nat) (hp : p.name = some "a") (hq : q.name = some "b") (h : Handler Empty Nat) :
    (((c.addPanel p).addPanel q).addHandler h).Reordered (((c.addHandler h).addPanel q).addPanel p) := by
  refine C98_cockpit_built c (parts := [.panel p, .panel q, .handler h]) (parts' := [.handler h, .panel q, .panel p]) ?_ ?_
  · exact List.reverse_perm [Piece.handler h, .panel q, .panel p]
  · simp [Piece.Apart, Apart, hp, hq]


/-- A cockpit with two panels. -/
def shuffledCockpit (n : String) (other : Bool) : Cockpit Empty Nat where
  head := { name := some n, activity := ⟨0, none, true⟩ }
  panels := if other then [roomyPanel false "a", roomyPanel true "b"] else [roomyPanel true "b", roomyPanel false "a"]

/-- A processor with such a cockpit. Two more are to be added by messages. -/
def shuffledProcessor (other : Bool) : Processor Empty Nat where
  state := { name := some "p", activity := ⟨0, some 3000000000, true⟩, cockpits := [shuffledCockpit "c" other] }
  receiver := { chan := { Channel.fresh (some 10) true [{ todo := [] }] with queue :=
    if other then [(0, .addCockpit (shuffledCockpit "d" false)), (0, .addCockpit (shuffledCockpit "e" false)),
      (0, .observation (.observedOneValue 1 (.signedInteger 5) 0))]
    else [(0, .addCockpit (shuffledCockpit "e" false)), (0, .addCockpit (shuffledCockpit "d" false)),
      (0, .observation (.observedOneValue 1 (.signedInteger 5) 0))] } }

/-- What is to happen to it. -/
def shuffledHappenings (other : Bool) : List (Happening Empty Nat) :=
  if other then [.message 3 .processAll (.addCockpit (shuffledCockpit "d" false)), .message 3 .processAll (.addCockpit (shuffledCockpit "e" false)),
    .message 3 .processAll (.observation (.observedOneValue 1 (.signedInteger 5) 0))]
  else [.message 3 .processAll (.addCockpit (shuffledCockpit "e" false)), .message 3 .processAll (.addCockpit (shuffledCockpit "d" false)),
    .message 3 .processAll (.observation (.observedOneValue 1 (.signedInteger 5) 0))]

theorem shuffled_state : (shuffledProcessor false).state.Reordered (shuffledProcessor true).state :=
  ⟨rfl, rfl, rfl, .cons ⟨rfl, .swap (.refl _) (.refl _) .nil, .nil, .nil⟩ .nil, .nil, .nil⟩

theorem shuffled_happenings : HappeningsReordered (shuffledHappenings false) (shuffledHappenings true) :=
  .swapMessages 3 .processAll (.inl (.cockpits fun m h1 h2 => by
    have := h1.trans h2.symm
    revert this
    decide))

theorem shuffled_happens (other : Bool)
    (h : (callsAt Processor.call ticking (shuffledProcessor other) [(3, .process 6 .processAll)]).isSome) :
    ∃ p' log, log.map (fun c => (c.1, c.2.1)) = [(3, .process 6 .processAll)] ∧
      Happened ticking (shuffledProcessor other) log (shuffledHappenings other) p' := by
  obtain ⟨p', log, h1, h2⟩ := callsAt_spec h
  refine ⟨p', log, h2, ?_⟩
  have calls : ∀ d ∈ log, d.1 = 3 ∧ ((∃ max, d.2.1 = .process max .processAll) ∨ d.2.1.IsSnapshot) := by
    intro d hd
    have : (d.1, d.2.1) ∈ log.map (fun c => (c.1, c.2.1)) := List.mem_map_of_mem hd
    rw [h2] at this
    simp only [List.mem_cons, Prod.mk.injEq, List.not_mem_nil, or_false] at this
    exact ⟨this.1, .inl ⟨6, this.2⟩⟩
  have sum : (log.map (·.2.1.polls)).sum = 6 := by
    have : log.map (·.2.1.polls) = (log.map (fun c => (c.1, c.2.1))).map (·.2.polls) := by rw [List.map_map]; rfl
    rw [this, h2]; rfl
  have := happened_quiet (p := shuffledProcessor other) rfl nofun calls h1
  rw [sum] at this
  cases other <;> exact this

theorem shuffled_rings (other : Bool) : RingsOk (shuffledProcessor other).state.instruments ∧
    ∀ a ∈ shuffledHappenings other, RingsOk a.instruments := by
  have h1 : (shuffledProcessor false).state.instruments =
    [.counter { name := "n" }, .gauge { name := "g" }, .counter { name := "m" }, .counter { name := "n" }] := rfl
  have h2 : (shuffledProcessor true).state.instruments =
    [.counter { name := "n" }, .counter { name := "n" }, .gauge { name := "g" }, .counter { name := "m" }] := rfl
  have h3 : ∀ n, RingsOk (Happening.message 3 .processAll (.addCockpit (shuffledCockpit n false))).instruments := by
    intro n
    have : (Happening.message 3 .processAll (.addCockpit (shuffledCockpit n false))).instruments =
      [.counter { name := "n" }, .gauge { name := "g" }, .counter { name := "m" }, .counter { name := "n" }] := rfl
    rw [this]
    exact roomy_rings (by simp)
  have h4 : RingsOk (Happening.message (σ := Empty) (L := Nat) 3 .processAll (.observation (.observedOneValue 1 (.signedInteger 5) 0))).instruments := by
    simp [Happening.instruments, Message.instruments, RingsOk]
  cases other with
  | false =>
    rw [h1]
    refine ⟨roomy_rings (by simp), fun a ha => ?_⟩
    simp only [shuffledHappenings, Bool.false_eq_true, if_false, List.mem_cons, List.not_mem_nil, or_false] at ha
    rcases ha with rfl | rfl | rfl
    · exact h3 _
    · exact h3 _
    · exact h4
  | true =>
    rw [h2]
    refine ⟨roomy_rings (by simp), fun a ha => ?_⟩
    simp only [shuffledHappenings, if_true, List.mem_cons, List.not_mem_nil, or_false] at ha
    rcases ha with rfl | rfl | rfl
    · exact h3 _
    · exact h3 _
    · exact h4

/-- With the parts in another order, the snapshots have the same values. -/
example : ∃ q log q' log', Happened ticking (shuffledProcessor false) log (shuffledHappenings false) q ∧
    Happened ticking (shuffledProcessor true) log' (shuffledHappenings true) q' ∧
    log ≠ [] ∧ totalsOf log = totalsOf log' ∧ ∀ n into, 3 ≤ n → Option.Rel (fun s s' : Snapshot => (Snapshot.values [] s).Perm (Snapshot.values [] s'))
      ((q.putSnapshot into false (ticking.at n) 0).map (·.1.2)) ((q'.putSnapshot into false (ticking.at n) 0).map (·.1.2)) := by
  obtain ⟨p₁, log₁, hl₁, h₁⟩ := shuffled_happens false (by decide +kernel)
  obtain ⟨p₂, log₂, hl₂, h₂⟩ := shuffled_happens true (by decide +kernel)
  have order : ∀ {log : List (Nat × Call Empty Nat × Reply)} {o : Call Empty Nat}, log.map (fun c => (c.1, c.2.1)) = [(3, o)] →
      MomentsInOrder log ∧ (∀ c ∈ log, c.1 = 3) ∧ log ≠ [] := by
    intro log o h
    obtain ⟨c, rfl⟩ := List.length_eq_one_iff.1 ((List.length_map _).symm.trans (congrArg List.length h))
    simp only [List.map_cons, List.map_nil, List.cons.injEq, Prod.mk.injEq] at h
    exact ⟨by simp [MomentsInOrder], by simp [h.1.1], by simp⟩
  have r₁ := shuffled_rings false
  have r₂ := shuffled_rings true
  refine ⟨p₁, log₁, p₂, log₂, h₁, h₂, (order hl₁).2.2, C98_totals emptyStill ticking_mono h₁ h₂ shuffled_state shuffled_happenings r₁.1 r₂.1
    r₁.2 r₂.2 (order hl₁).1 (order hl₂).1, fun n into hn => ?_⟩
  have := C98_snapshots emptyStill emptyFrames ticking_mono h₁ h₂ shuffled_state shuffled_happenings r₁.1 r₂.1 r₁.2 r₂.2 (order hl₁).1
    (order hl₂).1 (n := n) (fun c hc => by rw [(order hl₁).2.1 c hc]; exact hn) (fun c hc => by rw [(order hl₂).2.1 c hc]; exact hn)
    (.refl into)
  revert this
  generalize (p₁.putSnapshot into false (ticking.at n) 0).map (·.1.2) = a
  generalize (p₂.putSnapshot into false (ticking.at n) 0).map (·.1.2) = b
  intro this
  cases this with
  | none => exact .none
  | some h => exact .some (C98_values h [])

end Metrix
