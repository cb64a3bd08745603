import Verif.Proof.Filtered
import Verif.Props.C86
import Verif.Props.C101

/-!
# C103: where labels are filtered does not matter

Two programs with different filters, such that the same labels get through to each instrument (`Spec.Filtered`), report
the same outcomes and show the same snapshots.
-/

namespace Metrix
variable {σ L : Type} [DecidableEq L] [Custom σ L] [CustomProcessor σ]

/-- Processors, mounts and attached mounts in which the same labels get through to each instrument: whatever is done with
them, they return the same outcomes and snapshots. If one panics, so does the other. -/
theorem C103_results {n n' : Node σ L} (h : n.Filtered n') (cs : List NodeCall) : n'.results cs = n.results cs := by
  induction cs generalizing n n' with
  | nil => rfl
  | cons c cs ih =>
    cases c with
    | process max strategy =>
      exact (Same.eq (h.process max strategy) fun a b o hab => by simp only [ih hab]).symm
    | snapshot into d =>
      exact (Same.eq (h.put d into) fun a b o hab => by simp only [ih hab]).symm

omit [Custom σ L] [CustomProcessor σ] in
theorem Iteration.Filtered.report {a b : Iteration σ L} (h : a.Filtered b) : b.report = a.report := by
  obtain ⟨m, an, o, r⟩ := a
  obtain ⟨m', an', o', r'⟩ := b
  obtain ⟨h1, h2, h3, h4⟩ := h
  simp only at h1 h2 h3 h4
  subst h2 h3 h4
  cases h1 with
  | none => rfl
  | some h1 => cases h1 <;> cases an <;> rfl

/-- The same for drivers: in any number of iterations they give the same answers to the same requests, report the same
outcomes, sleep equally long and read the clock equally often. -/
theorem C103_driver {t t' : DriverThread σ L} (h : t.Filtered t') (n : Nat) (e : Env) (k : Nat) :
    (t'.iterations n e k).1.map Iteration.report = (t.iterations n e k).1.map Iteration.report ∧
      (t'.iterations n e k).2.1 = (t.iterations n e k).2.1 ∧ (t.iterations n e k).2.2.Filtered (t'.iterations n e k).2.2 := by
  induction n generalizing t t' k with
  | zero => exact ⟨rfl, rfl, h⟩
  | succ n ih =>
    obtain ⟨h1, h2, h3⟩ := h.iterate e k
    unfold DriverThread.iterations
    generalize t.iterate e k = x at h1 h2 h3 ⊢
    generalize t'.iterate e k = y at h1 h2 h3 ⊢
    obtain ⟨t₁, i, k₁⟩ := x
    obtain ⟨t₁', i', k₁'⟩ := y
    simp only at h1 h2 h3 ⊢
    subst h3
    obtain ⟨h4, h5, h6⟩ := ih h1 k₁
    refine ⟨?_, h5, h6⟩
    simp only [List.map_append, h4]
    congr 1
    cases h2 with
    | none => rfl
    | some h2 => simp only [Option.toList_some, List.map_cons, List.map_nil, h2.report]

omit [CustomProcessor σ] in
/-- A panel to which the labels `A` get: the same happens in both, and the same number of instruments is updated. -/
theorem C103_panel {A A' : L → Bool} {p p' : Panel σ L} (h : p.Sifted A A' p') (o : Observation L) (ho : A o.label = true)
    (ho' : A' o.label = true) : Same (Panel.Sifted A A') (p.handle o) (p'.handle o) := by
  have := h.handle o
  rwa [ho, ho'] at this

/-! ## The same filters -/

section Refl
omit [Custom σ L] [CustomProcessor σ]

theorem LabelFilter.of_congr {A A' : L → Bool} (hA : ∀ l, A l = A' l) (f : LabelFilter L) (l : L) : f.of A l = f.of A' l := by
  simp only [LabelFilter.of, hA]

theorem InstrumentAdapter.Sifted.refl {I : Type} {A A' : L → Bool} (hA : ∀ l, A l = A' l) (a : InstrumentAdapter L I) :
    a.Sifted A A' a := ⟨LabelFilter.of_congr hA _, rfl, rfl⟩

theorem GaugeAdapter.Sifted.refl {A A' : L → Bool} (hA : ∀ l, A l = A' l) (a : GaugeAdapter L) : a.Sifted A A' a := by
  refine ⟨?_, rfl, rfl⟩
  cases a.strategy with
  | filter f => exact .filter (f.of_congr hA)
  | deltasOnly f => exact .deltasOnly (f.of_congr hA)
  | incDecOnLabels inc dec => exact .incDecOnLabels (inc.of_congr hA) fun l _ => dec.of_congr hA l

theorem sifted_option {X Y : Type} {R : X → Y → Prop} {g : X → Y} (hr : ∀ a, R a (g a)) (a : Option X) : Option.Rel R a (a.map g) := by
  cases a with
  | none => exact .none
  | some a => exact .some (hr a)

theorem sifted_slot {X : Type} {R : X → X → Prop} (hr : ∀ a, R a a) (a : Option X) : Option.Rel R a a := by
  cases a with
  | none => exact .none
  | some a => exact .some (hr a)

theorem PanelHead.Sifted.refl {A A' : L → Bool} (hA : ∀ l, A l = A' l) (h : PanelHead L) : h.Sifted A A' h :=
  ⟨rfl, rfl, sifted_slot (.refl hA) _, sifted_slot (.refl hA) _, sifted_slot (.refl hA) _, sifted_slot (.refl hA) _, rfl⟩

mutual
theorem Panel.Sifted.refl : ∀ {A A' : L → Bool}, (∀ l, A l = A' l) → ∀ p : Panel σ L, p.Sifted A A' p
  | _, _, hA, .mk h ps hs ss => .mk ss (.refl (h.labelFilter.of_congr hA) h)
      (PanelsSifted.refl (h.labelFilter.of_congr hA) ps) (HandlersSifted.refl (h.labelFilter.of_congr hA) hs)
theorem PanelsSifted.refl : ∀ {A A' : L → Bool}, (∀ l, A l = A' l) → ∀ ps : List (Panel σ L), PanelsSifted A A' ps ps
  | _, _, _, [] => .nil
  | _, _, hA, p :: ps => .cons (Panel.Sifted.refl hA p) (PanelsSifted.refl hA ps)
theorem Handler.Sifted.refl : ∀ {A A' : L → Bool}, (∀ l, A l = A' l) → ∀ h : Handler σ L, h.Sifted A A' h
  | _, _, hA, .instrument a => .instrument (.refl hA a)
  | _, _, hA, .gauge a => .gauge (.refl hA a)
  | _, _, hA, .panel p => .panel (Panel.Sifted.refl hA p)
  | _, _, hA, .cockpit h ps hs ss => .cockpit h ss hA (PanelsSifted.refl hA ps) (HandlersSifted.refl hA hs)
  | _, _, hA, .custom s => .custom s hA
theorem HandlersSifted.refl : ∀ {A A' : L → Bool}, (∀ l, A l = A' l) → ∀ hs : List (Handler σ L), HandlersSifted A A' hs hs
  | _, _, _, [] => .nil
  | _, _, hA, h :: hs => .cons (Handler.Sifted.refl hA h) (HandlersSifted.refl hA hs)
end

theorem Handler.Filtered.refl (h : Handler σ L) : h.Filtered h := Handler.Sifted.refl (fun _ => rfl) h
theorem Panel.Filtered.refl (p : Panel σ L) : p.Filtered p := Panel.Sifted.refl (fun _ => rfl) p

theorem filtered_list {X : Type} {R : X → X → Prop} (hr : ∀ a, R a a) (as : List X) : List.Forall₂ R as as := by
  induction as with
  | nil => exact .nil
  | cons a as ih => exact .cons (hr a) ih

theorem Cockpit.Filtered.refl (c : Cockpit σ L) : c.Filtered c :=
  ⟨rfl, filtered_list Panel.Filtered.refl _, filtered_list Handler.Filtered.refl _, rfl⟩

theorem Message.Filtered.refl (m : Message σ L) : m.Filtered m := by
  cases m with
  | observation o => exact .observation o
  | addCockpit c => exact .addCockpit (.refl c)
  | removeCockpit n => exact .removeCockpit n
  | addHandler h => exact .addHandler (.refl h)
  | addPanelToCockpit n p => exact .addPanelToCockpit n (.refl p)
  | removePanelFromCockpit n m => exact .removePanelFromCockpit n m

omit [DecidableEq L] in
theorem Receiver.like_refl {μ : Type} {R : μ → μ → Prop} (hr : ∀ m, R m m) (r : Receiver μ) : r.Like R r :=
  ⟨⟨filtered_list (fun x => ⟨rfl, hr x.2⟩) _, rfl, rfl, rfl, filtered_list (fun _ => ⟨filtered_list hr _, rfl, rfl⟩) _⟩, rfl⟩

end Refl

/-! ## Moving a filter -/

section Moved
omit [Custom σ L] [CustomProcessor σ]

theorem LabelFilter.of_and (f g : LabelFilter L) (A : L → Bool) (l : L) :
    g.of (f.of A) l = (f.and g).of (LabelFilter.acceptAll.of A) l := by
  simp only [LabelFilter.of, LabelFilter.and, LabelFilter.accepts, Bool.and_true, Bool.and_assoc]

variable {A : L → Bool} (f : LabelFilter L)

theorem InstrumentAdapter.Sifted.narrow {I : Type} (a : InstrumentAdapter L I) :
    a.Sifted (f.of A) (LabelFilter.acceptAll.of A) (a.narrow f) := ⟨f.of_and _ A, rfl, rfl⟩

theorem GaugeAdapter.Sifted.narrow (a : GaugeAdapter L) : a.Sifted (f.of A) (LabelFilter.acceptAll.of A) (a.narrow f) := by
  refine ⟨?_, rfl, rfl⟩
  unfold GaugeAdapter.narrow
  cases a.strategy with
  | filter g => exact .filter (f.of_and g A)
  | deltasOnly g => exact .deltasOnly (f.of_and g A)
  | incDecOnLabels inc dec => exact .incDecOnLabels (f.of_and inc A) fun l _ => f.of_and dec A l

theorem Panel.Sifted.narrow (p : Panel σ L) : p.Sifted (f.of A) (LabelFilter.acceptAll.of A) (p.narrow f) := by
  obtain ⟨h, ps, hs, ss⟩ := p
  have hf := f.of_and h.labelFilter A
  have hh := PanelHead.Sifted.refl hf h
  exact .mk ss ⟨hh.name, hh.descr, hh.counter, hh.gauge, hh.meter, hh.histogram, hh.activity⟩ (.refl hf ps) (.refl hf hs)

theorem Handler.Sifted.narrow (h : Handler σ L) (hf : h.filters = true) :
    h.Sifted (f.of A) (LabelFilter.acceptAll.of A) (h.narrow f) := by
  cases h with
  | instrument a => exact .instrument (.narrow f a)
  | gauge a => exact .gauge (.narrow f a)
  | panel p => exact .panel (.narrow f p)
  | cockpit => cases hf
  | custom => cases hf

/-- A panel may leave it to its parts to filter. -/
theorem C103_opened (p : Panel σ L) (hp : ∀ h ∈ p.handlers, h.filters = true) : p.Sifted A A p.opened := by
  obtain ⟨h, ps, hs, ss⟩ := p
  refine .mk ss ⟨rfl, rfl, sifted_option (.narrow _) _, sifted_option (.narrow _) _, sifted_option (.narrow _) _,
    sifted_option (.narrow _) _, rfl⟩ ?_ ?_
  · clear hp
    induction ps with
    | nil => exact .nil
    | cons p ps ih => exact .cons (.narrow _ p) ih
  · simp only [Panel.handlers] at hp
    induction hs with
    | nil => exact .nil
    | cons x hs ih => exact .cons (.narrow _ x (hp x (.head _))) (ih fun y hy => hp y (.tail _ hy))

/-- A filter in a panel that accepts all labels which the panel accepts might as well accept all labels; and one that
accepts none of them might as well accept none. -/
theorem C103_redundant {I : Type} (a : InstrumentAdapter L I) :
    ((∀ l, f.accepts l = true → a.labelFilter.accepts l = true) → a.Sifted (f.of A) (f.of A) a.acceptAllLabels) ∧
    ((∀ l, f.accepts l = true → a.labelFilter.accepts l = false) → a.Sifted (f.of A) (f.of A) a.acceptNoLabels) := by
  refine ⟨fun h => ⟨fun l => ?_, rfl, rfl⟩, fun h => ⟨fun l => ?_, rfl, rfl⟩⟩
  · show (A l && f.accepts l && a.labelFilter.accepts l) = (A l && f.accepts l && true)
    cases hl : f.accepts l with
    | false => simp only [Bool.and_false, Bool.false_and]
    | true => rw [h l hl]
  · show (A l && f.accepts l && a.labelFilter.accepts l) = (A l && f.accepts l && false)
    cases hl : f.accepts l with
    | false => simp only [Bool.and_false, Bool.false_and]
    | true => rw [h l hl]

end Moved

/-! ## In a processor -/

omit [Custom σ L] [CustomProcessor σ] in
theorem Processor.Filtered.handler {s : ProcessorState σ L} {h h' : Handler σ L} (hh : h.Filtered h')
    (r : Receiver (Message σ L)) (b : Bool) :
    Processor.Filtered { state := s.addHandler h, receiver := r, isDisconnected := b }
      { state := s.addHandler h', receiver := r, isDisconnected := b } :=
  ⟨⟨rfl, rfl, filtered_list Cockpit.Filtered.refl _, like_append (filtered_list Handler.Filtered.refl _) (.cons hh .nil), rfl, rfl⟩,
    Receiver.like_refl Message.Filtered.refl r, rfl⟩

/-- Whatever else is in a processor, whatever is sent to it and whatever is done with it: it does not matter whether a
panel in it filters or leaves that to its parts. -/
theorem C103_opened_results (s : ProcessorState σ L) (r : Receiver (Message σ L)) (b : Bool) (p : Panel σ L)
    (hp : ∀ h ∈ p.handlers, h.filters = true) (cs : List NodeCall) :
    (Node.processor { state := s.addHandler (.panel p.opened), receiver := r, isDisconnected := b }).results cs =
      (Node.processor { state := s.addHandler (.panel p), receiver := r, isDisconnected := b }).results cs :=
  C103_results (.processor (.handler (.panel (C103_opened p hp)) r b)) cs

/-! ## Groups

A panel without name and limit only organises (C101), also if it filters: its parts can as well be narrowed and added to
the processor. -/

section Groups
omit [CustomProcessor σ]

omit [Custom σ L] in
theorem ProcessorState.Filtered.activeAt {s s' : ProcessorState σ L} (h : s.Filtered s') (t : Int) : (s.activeAt t).Filtered (s'.activeAt t) := by
  unfold ProcessorState.activeAt
  rw [h.activity]
  exact ⟨h.name, h.descr, h.cockpits, h.handlers, h.snapshooters, rfl⟩

omit [Custom σ L] in
theorem ProcessorState.Filtered.set {s s' : ProcessorState σ L} (h : s.Filtered s') (c : Call σ L) : (s.set c).Filtered (s'.set c) := by
  cases c with
  | process | snapshot => exact h
  | addCockpit c =>
    have hadd := like_append h.cockpits (.cons (Cockpit.Filtered.refl c) .nil)
    simp only [ProcessorState.set, ProcessorState.addCockpit]
    split
    · rw [like_any (fun a b hab => by rw [Cockpit.Filtered.name hab]) h.cockpits]
      split
      · exact h
      · exact ⟨h.name, h.descr, hadd, h.handlers, h.snapshooters, h.activity⟩
    · exact ⟨h.name, h.descr, hadd, h.handlers, h.snapshooters, h.activity⟩
  | addHandler x => exact ⟨h.name, h.descr, h.cockpits, like_append h.handlers (.cons (.refl x) .nil), h.snapshooters, h.activity⟩
  | addSnapshooter x =>
    exact ⟨h.name, h.descr, h.cockpits, h.handlers, congrArg (· ++ [x]) h.snapshooters, h.activity⟩
  | setName n => exact ⟨rfl, h.descr, h.cockpits, h.handlers, h.snapshooters, h.activity⟩
  | setInactivityLimit d =>
    exact ⟨h.name, h.descr, h.cockpits, h.handlers, h.snapshooters, congrArg (fun a : Activity => { a with maxInactivity := some d }) h.activity⟩
  | setShowActivityState b =>
    exact ⟨h.name, h.descr, h.cockpits, h.handlers, h.snapshooters, congrArg (fun a : Activity => { a with show_ := b }) h.activity⟩

theorem filtered_play (e : Env) {s s' : ProcessorState σ L} (h : s.Filtered s') (u : Tally) (a : Happening σ L) :
    Option.Rel (fun r r' => r.1.Filtered r'.1 ∧ r.2 = r'.2) (Happening.play e (s, u) a) (Happening.play e (s', u) a) := by
  cases a with
  | set c => exact .some ⟨h.set c, rfl⟩
  | message m strategy x =>
    unfold Happening.play
    have key : Same ProcessorState.Filtered
        (do let dec ← strategy.decider; let (s, t) ← s.receive dec u x; return (s.activeAt (e.clock m), t) : M (ProcessorState σ L × Tally))
        (do let dec ← strategy.decider; let (s, t) ← s'.receive dec u x; return (s.activeAt (e.clock m), t)) := by
      refine .bindEq _ fun dec => .bind _ (h.receive dec u (.refl x)) ?_
      rintro ⟨a, t⟩ ⟨a', _⟩ ⟨rfl, h1⟩
      exact .pure ⟨rfl, h1.activeAt _⟩
    have := key (e.at m) 0
    dsimp only
    generalize (do let dec ← strategy.decider; let (s, t) ← s.receive dec u x; return (s.activeAt (e.clock m), t) : M (ProcessorState σ L × Tally))
      (e.at m) 0 = y at this ⊢
    generalize (do let dec ← strategy.decider; let (s, t) ← s'.receive dec u x; return (s.activeAt (e.clock m), t) : M (ProcessorState σ L × Tally))
      (e.at m) 0 = z at this ⊢
    cases this with
    | none => exact .none
    | some h => exact .some ⟨h.2.2, h.2.1⟩

theorem filtered_plays (e : Env) (hs : List (Happening σ L)) : ∀ {s s' : ProcessorState σ L} (u : Tally), s.Filtered s' →
    Option.Rel (fun r r' => r.1.Filtered r'.1 ∧ r.2 = r'.2) (hs.foldlM (Happening.play e) (s, u)) (hs.foldlM (Happening.play e) (s', u)) := by
  induction hs with
  | nil => exact fun u h => .some ⟨h, rfl⟩
  | cons a hs ih =>
    intro s s' u h
    rw [List.foldlM_cons, List.foldlM_cons]
    have := filtered_play e h u a
    revert this
    generalize Happening.play e (s, u) a = y
    generalize Happening.play e (s', u) a = z
    intro this
    cases this with
    | none => exact .none
    | @some y z h =>
      obtain ⟨s, u⟩ := y
      obtain ⟨s', u'⟩ := z
      obtain ⟨h, rfl⟩ := h
      exact ih u h

/-- The same happens to two processors. The one has a group, a panel without name and limit but with some filter; the
other one has the parts of that group, all narrowed by the filter. Then both show the same, in another order, or both
panic, and both report the same numbers in total. -/
theorem C103_groups (hc : CustomStill σ L) (ha : CustomFrames σ L) {e : Env} (mono : e.Mono)
    {s : ProcessorState σ L} {p p' q q' : Processor σ L} {g : PanelHead L} (hg : g.Plain)
    {parts : List (PanelStep σ L)} (hp : ∀ a ∈ parts, ∃ x, a.asHandler = some x ∧ x.filters = true)
    (hs : p.state = s.addHandler (.panel (parts.foldl Panel.with_ (.mk g [] [] []))))
    (hs' : p'.state = ((parts.filterMap (·.asHandler)).map (·.narrow g.labelFilter)).foldl ProcessorState.addHandler s)
    {log log' : List (Nat × Call σ L × Reply)} {hh hh' : List (Happening σ L)} (h : Happened e p log hh q) (h' : Happened e p' log' hh' q')
    (hhw : HappeningsReordered hh hh') (hr : RingsOk p.state.instruments) (hr' : RingsOk p'.state.instruments)
    (hrs : ∀ a ∈ hh, RingsOk a.instruments) (hrs' : ∀ a ∈ hh', RingsOk a.instruments) (ho : MomentsInOrder log)
    (ho' : MomentsInOrder log') {n : Nat} (hn : ∀ c ∈ log, c.1 ≤ n) (hn' : ∀ c ∈ log', c.1 ≤ n) (into : Snapshot) :
    totalsOf log = totalsOf log' ∧ Option.Rel Snapshot.Reordered ((q.putSnapshot into false (e.at n) 0).map (·.1.2))
      ((q'.putSnapshot into false (e.at n) 0).map (·.1.2)) := by
  have hf : ∀ x ∈ parts.filterMap (·.asHandler), x.filters = true := by
    intro x hx
    obtain ⟨a, h1, h2⟩ := List.mem_filterMap.1 hx
    obtain ⟨y, h3, h4⟩ := hp a h1
    rw [h3] at h2
    cases h2
    exact h4
  have hA : p.state.Reordered (s.addHandler (.panel (.mk g [] (parts.filterMap (·.asHandler)) []))) := by
    rw [hs]
    refine ⟨rfl, rfl, rfl, .refl _, .prepend _ (.cons (.panel ?_) .nil), .refl _⟩
    refine .ofHandlers (fun a h => ?_) g []
    obtain ⟨x, h1, _⟩ := hp a h
    rw [h1]
    nofun
  have hB : (s.addHandler (.panel (.mk g [] (parts.filterMap (·.asHandler)) []))).Filtered
      (s.addHandler (.panel (Panel.mk g [] (parts.filterMap (·.asHandler)) []).opened)) :=
    (Processor.Filtered.handler (.panel (C103_opened _ hf)) p.receiver false).state
  have hC : (s.addHandler (.panel (Panel.mk g [] (parts.filterMap (·.asHandler)) []).opened)).Reordered p'.state := by
    rw [hs', ProcessorState.addHandlers]
    refine ⟨rfl, rfl, rfl, .refl _, .prepend _ ?_, .refl _⟩
    have hg' : PanelHead.Plain (Panel.mk g [] (parts.filterMap (·.asHandler)) [] : Panel σ L).opened.head :=
      ⟨hg.name, hg.limit, by simp [Panel.opened, Panel.head, hg.counter], by simp [Panel.opened, Panel.head, hg.gauge],
        by simp [Panel.opened, Panel.head, hg.meter], by simp [Panel.opened, Panel.head, hg.histogram]⟩
    have := HandlersReordered.panel hg' rfl (.refl ((parts.filterMap (·.asHandler)).map (·.narrow g.labelFilter))) (.nil (σ := σ))
    rw [List.append_nil] at this
    exact this
  obtain ⟨y, h3, h4⟩ := h.plays hc mono p.state {} n ho hrs (moments_le hn) fun m _ => ProcessorState.alike_refl hr
  obtain ⟨y', h5, h6⟩ := h'.plays hc mono p'.state {} n ho' hrs' (moments_le hn') fun m _ => ProcessorState.alike_refl hr'
  have p1 := plays_same hc (e := e) hh {} hA
  have p2 := filtered_plays e hh {} hB
  have p3 := hhw.plays hc (e := e) {} hC
  rw [h3] at p1
  rw [h5] at p3
  revert p1 p2 p3
  generalize hh.foldlM (Happening.play e) (s.addHandler (.panel (.mk g [] (parts.filterMap (·.asHandler)) [])), {}) = a
  generalize hh.foldlM (Happening.play e) (s.addHandler (.panel (Panel.mk g [] (parts.filterMap (·.asHandler)) []).opened), {}) = b
  intro p1 p2 p3
  cases p1 with
  | @some _ a p1 =>
    cases p2 with
    | @some _ b p2 =>
      cases p3 with
      | some p3 =>
        refine ⟨?_, ?_⟩
        · have := (p1.2.trans p2.2).trans p3.2
          simp only [Tally.plus, Nat.zero_add, Tally.mk.injEq] at this
          revert this
          generalize totalsOf log = a
          generalize totalsOf log' = b
          rintro ⟨h8, h9, h10⟩
          obtain ⟨_, _, _⟩ := a
          obtain ⟨_, _, _⟩ := b
          simp_all
        · rw [h6.shown hc, h4.shown hc]
          have q1 := p1.1.put (hc.at e n) ha (e.at_frozen n) into into 0 0
          have q2 := p2.1.put into false (e.at n) 0
          have q3 := p3.1.put (hc.at e n) ha (e.at_frozen n) into into 0 0
          revert q1 q2 q3
          generalize y.putSnapshot into false (e.at n) 0 = w
          generalize a.1.putSnapshot into false (e.at n) 0 = x
          generalize b.1.putSnapshot into false (e.at n) 0 = x'
          generalize y'.putSnapshot into false (e.at n) 0 = w'
          intro q1 q2 q3
          cases q1 with
          | none => cases q2; cases q3; exact .none
          | some q1 =>
            cases q2 with
            | some q2 =>
              cases q3 with
              | some q3 =>
                have r1 := q1.reordered (.refl into)
                have r3 := q3.reordered (.refl into)
                rw [q2.2.1] at r1
                exact .some (r1.trans r3)

end Groups

/-! ## Examples -/

/-- A panel for the labels 1, 2 and 3 with a counter for 2 and 4, and a panel in it for 3 with a counter for everything. -/
def siftingPanel : Panel Empty Nat :=
  .mk { labelFilter := .three 1 2 3, name := some "p", activity := { lastActivity := 0 }
        counter := some { labelFilter := .two 2 4, instrument := { name := "a" } }
        gauge := some { strategy := .incDecOnLabels (.one 1) (.two 1 3), gauge := { name := "g" } } }
    [.mk { labelFilter := .one 3, name := some "q", activity := { lastActivity := 0 }
           counter := some { labelFilter := .acceptAll, instrument := { name := "b" } } } [] [] []] [] []

/-- Observations with the labels 1, 2, 2, 3 and 4. -/
def siftingProcessor (p : Panel Empty Nat) : Node Empty Nat :=
  .processor
    { state := ProcessorState.addHandler { activity := { lastActivity := 0 } } (.panel p)
      receiver :=
        { chan := { queue := [1, 2, 2, 3, 4].map fun l => (0, .observation (.observedOne l 0))
                    threads := [{ todo := [] }] }
          ahead := [] } }

/-- The counters "a" and "b". -/
def siftedCounts : Option (List Reply × Nat) → Option (Option Nat × Option Nat)
  | some ([_, .snapshot s], _) => some (uintAt ["p"] "a" s, uintAt ["p", "q"] "b" s)
  | _ => none

example : ∀ h ∈ siftingPanel.handlers, h.filters = true := fun _ h => nomatch h

/-- The two observations with the label 2 are counted by the one, that with the label 3 by the other. -/
example : siftedCounts ((siftingProcessor siftingPanel).results [.process 5 .processAll, .snapshot [] false] ticking 0) =
    some (some 2, some 1) := by decide +kernel

example : siftedCounts ((siftingProcessor siftingPanel.opened).results [.process 5 .processAll, .snapshot [] false] ticking 0) =
    some (some 2, some 1) := by decide +kernel

example (cs : List NodeCall) : (siftingProcessor siftingPanel.opened).results cs = (siftingProcessor siftingPanel).results cs :=
  C103_opened_results _ _ _ siftingPanel (fun _ h => nomatch h) cs

/-- The filters of the parts have to be narrowed: a panel that just accepts everything counts the 4 as well. -/
example : siftedCounts ((siftingProcessor (.mk { siftingPanel.head with labelFilter := .acceptAll } siftingPanel.panels [] [])).results
    [.process 5 .processAll, .snapshot [] false] ticking 0) = some (some 3, some 1) := by decide +kernel

/-- Within a panel for the labels 1 and 2, a filter for 2 and 3 is as good as one for 2 alone. -/
example : InstrumentAdapter.Sifted ((LabelFilter.two 1 2).of fun _ => true) ((LabelFilter.two 1 2).of fun _ => true)
    (I := Counter) { labelFilter := .two 2 3, instrument := { name := "n" } } { labelFilter := .one (2 : Nat), instrument := { name := "n" } } :=
  ⟨fun l => by
    show (true && (decide (l = 1) || decide (l = 2)) && (decide (l = 2) || decide (l = 3))) =
      (true && (decide (l = 1) || decide (l = 2)) && decide (l = 2))
    by_cases h : l = 3
    · subst h; rfl
    · rw [decide_eq_false h, Bool.or_false], rfl, rfl⟩

/-- A group for the labels 1 and 2 with a counter for everything and a panel for 2 and 3, or their narrowed parts. -/
def siftingGroup : PanelHead Nat := { labelFilter := .two 1 2, activity := ⟨0, none, true⟩ }

def siftingParts : List (PanelStep Empty Nat) :=
  [.counter (.new { name := "x" }),
   .panel (.mk { labelFilter := .two 2 3, name := some "a", activity := ⟨0, none, true⟩
                 counter := some { labelFilter := .acceptAll, instrument := { name := "y" } } } [] [] [])]

def siftingGroupProcessor (flat : Bool) : Processor Empty Nat where
  state := if flat then ((siftingParts.filterMap (·.asHandler)).map (·.narrow siftingGroup.labelFilter)).foldl ProcessorState.addHandler
      { name := some "p", activity := ⟨0, none, true⟩ }
    else ProcessorState.addHandler { name := some "p", activity := ⟨0, none, true⟩ } (.panel (siftingParts.foldl Panel.with_ (.mk siftingGroup [] [] [])))
  receiver := { chan := { Channel.fresh (some 10) true [{ todo := [] }] with
    queue := [(0, .observation (.observedOne 1 0)), (0, .observation (.observedOne 2 0)), (0, .observation (.observedOne 3 0))] } }

def siftingHappenings : List (Happening Empty Nat) := [.message 3 .processAll (.observation (.observedOne 1 0)),
  .message 3 .processAll (.observation (.observedOne 2 0)), .message 3 .processAll (.observation (.observedOne 3 0))]

theorem sifting_happens (flat : Bool)
    (h : (callsAt Processor.call ticking (siftingGroupProcessor flat) [(3, .process 6 .processAll)]).isSome) :
    ∃ p' log, log.map (fun c => (c.1, c.2.1)) = [(3, .process 6 .processAll)] ∧
      Happened ticking (siftingGroupProcessor flat) log siftingHappenings p' := by
  obtain ⟨p', log, h1, h2⟩ := callsAt_spec h
  refine ⟨p', log, h2, ?_⟩
  have calls : ∀ d ∈ log, d.1 = 3 ∧ ((∃ max, d.2.1 = .process max .processAll) ∨ d.2.1.IsSnapshot) := by
    intro d hd
    have : (d.1, d.2.1) ∈ log.map (fun c => (c.1, c.2.1)) := List.mem_map_of_mem hd
    rw [h2] at this
    simp only [List.mem_cons, Prod.mk.injEq, List.not_mem_nil, or_false] at this
    exact ⟨this.1, .inl ⟨6, this.2⟩⟩
  have sum : (log.map (·.2.1.polls)).sum = 6 := by
    have : log.map (·.2.1.polls) = (log.map (fun c => (c.1, c.2.1))).map (·.2.polls) := by rw [List.map_map]; rfl
    rw [this, h2]; rfl
  have := happened_quiet (p := siftingGroupProcessor flat) rfl nofun calls h1
  rw [sum] at this
  cases flat <;> exact this

/-- Both show the same values. -/
example : ∃ q log q' log', Happened ticking (siftingGroupProcessor false) log siftingHappenings q ∧
    Happened ticking (siftingGroupProcessor true) log' siftingHappenings q' ∧
    log ≠ [] ∧ totalsOf log = totalsOf log' ∧ ∀ n into, 3 ≤ n → Option.Rel (fun s s' : Snapshot => (Snapshot.values [] s).Perm (Snapshot.values [] s'))
      ((q.putSnapshot into false (ticking.at n) 0).map (·.1.2)) ((q'.putSnapshot into false (ticking.at n) 0).map (·.1.2)) := by
  obtain ⟨p₁, log₁, hl₁, h₁⟩ := sifting_happens false (by decide +kernel)
  obtain ⟨p₂, log₂, hl₂, h₂⟩ := sifting_happens true (by decide +kernel)
  have order : ∀ {log : List (Nat × Call Empty Nat × Reply)} {o : Call Empty Nat}, log.map (fun c => (c.1, c.2.1)) = [(3, o)] →
      MomentsInOrder log ∧ (∀ c ∈ log, c.1 = 3) ∧ log ≠ [] := by
    intro log o h
    obtain ⟨c, rfl⟩ := List.length_eq_one_iff.1 ((List.length_map _).symm.trans (congrArg List.length h))
    simp only [List.map_cons, List.map_nil, List.cons.injEq, Prod.mk.injEq] at h
    exact ⟨by simp [MomentsInOrder], by simp [h.1.1], by simp⟩
  have r₁ : RingsOk (siftingGroupProcessor false).state.instruments := by
    rw [show (siftingGroupProcessor false).state.instruments = [.counter { name := "x" }, .counter { name := "y" }] from rfl]
    exact roomy_rings (by simp)
  have r₂ : RingsOk (siftingGroupProcessor true).state.instruments := by
    rw [show (siftingGroupProcessor true).state.instruments = [.counter { name := "x" }, .counter { name := "y" }] from rfl]
    exact roomy_rings (by simp)
  have r₃ : ∀ a ∈ siftingHappenings, RingsOk a.instruments := by
    simp [siftingHappenings, Happening.instruments, Message.instruments, RingsOk]
  have hh : HappeningsReordered siftingHappenings siftingHappenings :=
    .message 3 .processAll (.observation _) (.message 3 .processAll (.observation _) (.message 3 .processAll (.observation _) .nil))
  have hp : ∀ a ∈ siftingParts, ∃ x, a.asHandler = some x ∧ x.filters = true := by
    intro a ha
    simp only [siftingParts, List.mem_cons, List.not_mem_nil, or_false] at ha
    rcases ha with rfl | rfl <;> exact ⟨_, rfl, rfl⟩
  have key := fun n (hn : 3 ≤ n) into => C103_groups emptyStill emptyFrames ticking_mono ⟨rfl, rfl, rfl, rfl, rfl, rfl⟩ hp rfl rfl h₁ h₂ hh
    r₁ r₂ r₃ r₃ (order hl₁).1 (order hl₂).1 (n := n) (fun c hc => by rw [(order hl₁).2.1 c hc]; exact hn)
    (fun c hc => by rw [(order hl₂).2.1 c hc]; exact hn) into
  refine ⟨p₁, log₁, p₂, log₂, h₁, h₂, (order hl₁).2.2, (key 3 (Nat.le_refl 3) []).1, fun n into hn => ?_⟩
  have := (key n hn into).2
  revert this
  generalize (p₁.putSnapshot into false (ticking.at n) 0).map (·.1.2) = a
  generalize (p₂.putSnapshot into false (ticking.at n) 0).map (·.1.2) = b
  intro this
  cases this with
  | none => exact .none
  | some h => exact .some (C98_values h [])

end Metrix
