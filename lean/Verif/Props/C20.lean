import Verif.Props.C18

/-! # C20: adding several instruments of a kind loses none -/

namespace Metrix
variable {σ L : Type}

/-- The leaves of `p'` are those of `p` and the new ones, each behind the panel's filter. -/
def Gains (p p' : Panel σ L) (new : List (Placed σ L)) : Prop :=
  p'.leaves.Perm (behind p.head.labelFilter new ++ p.leaves) ∧ p'.head.labelFilter = p.head.labelFilter

theorem leavesOfHandlers_append (a b : List (Handler σ L)) :
    leavesOfHandlers (a ++ b) = leavesOfHandlers a ++ leavesOfHandlers b := by
  induction a with
  | nil => rfl
  | cons x a ih => simp [leavesOfHandlers, ih]

theorem leavesOfPanels_append (a b : List (Panel σ L)) :
    leavesOfPanels (a ++ b) = leavesOfPanels a ++ leavesOfPanels b := by
  induction a with
  | nil => rfl
  | cons x a ih => simp [leavesOfPanels, ih]

theorem behind_append (f : LabelFilter L) (a b : List (Placed σ L)) : behind f (a ++ b) = behind f a ++ behind f b :=
  List.map_append

theorem Gains.of_perm {h h' : PanelHead L} {ps ps' : List (Panel σ L)} {hs hs' : List (Handler σ L)}
    {ss ss' : List (Snapshooter σ L)} {new : List (Placed σ L)} (hf : h'.labelFilter = h.labelFilter)
    (hp : (h'.leaves ++ leavesOfPanels ps' ++ leavesOfHandlers hs').Perm
      (new ++ (h.leaves ++ leavesOfPanels ps ++ leavesOfHandlers hs))) :
    Gains (.mk h ps hs ss) (.mk h' ps' hs' ss') new := by
  refine ⟨?_, hf⟩
  simp only [Panel.leaves, Panel.head, hf]
  rw [← behind_append]
  exact hp.map _

theorem C20_add_handler (p : Panel σ L) (x : Handler σ L) : Gains p (p.addHandler x) x.leaves := by
  cases p with
  | mk h ps hs ss =>
    refine .of_perm rfl ?_
    rw [leavesOfHandlers_append, ← List.append_assoc]
    simp only [leavesOfHandlers, List.append_nil]
    exact List.perm_append_comm

theorem C20_add_panel (p q : Panel σ L) : Gains p (p.addPanel q) q.leaves := by
  cases p with
  | mk h ps hs ss =>
    refine .of_perm rfl ?_
    rw [leavesOfPanels_append]
    simp only [leavesOfPanels, List.append_nil]
    have := List.perm_append_comm_assoc (h.leaves ++ leavesOfPanels ps) q.leaves (leavesOfHandlers hs)
    simpa only [List.append_assoc] using this

/-- A snapshooter does not react to observations. -/
theorem C20_add_snapshooter (p : Panel σ L) (s : Snapshooter σ L) : Gains p (p.addSnapshooter s) [] := by
  cases p with
  | mk h ps hs ss => exact .of_perm rfl (.refl _)

theorem C20_add_instrument (p : Panel σ L) (i : Instrument σ) :
    Gains p (p.addInstrument i) [([], .instrument (.new i))] := C20_add_handler p _

theorem C20_add_counter (p : Panel σ L) (a : InstrumentAdapter L Counter) :
    Gains p (p.addCounter a) [([], .instrument (a.map .counter))] := by
  cases p with
  | mk h ps hs ss =>
    unfold Panel.addCounter
    cases hc : h.counter with
    | some c => simp only [hc]; exact C20_add_handler _ _
    | none =>
      simp only [hc, Option.isNone_none, if_true]
      refine .of_perm rfl ?_
      simp [PanelHead.leaves, hc]

theorem C20_add_gauge (p : Panel σ L) (a : GaugeAdapter L) : Gains p (p.addGauge a) [([], .gauge a)] := by
  cases p with
  | mk h ps hs ss =>
    unfold Panel.addGauge
    cases hc : h.gauge with
    | some c => simp only [hc]; exact C20_add_handler _ _
    | none =>
      simp only [hc, Option.isNone_none, if_true]
      refine .of_perm rfl ?_
      simp only [PanelHead.leaves, hc, Option.map_some, Option.map_none, Option.toList_some, Option.toList_none,
        List.append_nil, List.append_assoc]
      exact List.perm_middle

theorem C20_add_meter (p : Panel σ L) (a : InstrumentAdapter L Meter) :
    Gains p (p.addMeter a) [([], .instrument (a.map .meter))] := by
  cases p with
  | mk h ps hs ss =>
    unfold Panel.addMeter
    cases hc : h.meter with
    | some c => simp only [hc]; exact C20_add_handler _ _
    | none =>
      simp only [hc, Option.isNone_none, if_true]
      refine .of_perm rfl ?_
      simp only [PanelHead.leaves, hc, Option.map_some, Option.map_none, Option.toList_some, Option.toList_none,
        List.append_nil]
      have := List.perm_append_comm_assoc
        ((h.counter.map fun a => (([] : List (LabelFilter L)), (Leaf.instrument (a.map .counter) : Leaf σ L))).toList ++
          (h.gauge.map fun a => (([] : List (LabelFilter L)), (.gauge a : Leaf σ L))).toList)
        [([], .instrument (a.map .meter))]
        ((h.histogram.map fun a => (([] : List (LabelFilter L)), (Leaf.instrument (a.map .histogram) : Leaf σ L))).toList ++
          (leavesOfPanels ps ++ leavesOfHandlers hs))
      simpa only [List.append_assoc] using this

theorem C20_add_histogram (p : Panel σ L) (a : InstrumentAdapter L Histogram) :
    Gains p (p.addHistogram a) [([], .instrument (a.map .histogram))] := by
  cases p with
  | mk h ps hs ss =>
    unfold Panel.addHistogram
    cases hc : h.histogram with
    | some c => simp only [hc]; exact C20_add_handler _ _
    | none =>
      simp only [hc, Option.isNone_none, if_true]
      refine .of_perm rfl ?_
      simp only [PanelHead.leaves, hc, Option.map_some, Option.map_none, Option.toList_some, Option.toList_none,
        List.append_nil]
      have := List.perm_append_comm_assoc
        ((h.counter.map fun a => (([] : List (LabelFilter L)), (Leaf.instrument (a.map .counter) : Leaf σ L))).toList ++
          (h.gauge.map fun a => (([] : List (LabelFilter L)), (.gauge a : Leaf σ L))).toList ++
          (h.meter.map fun a => (([] : List (LabelFilter L)), (Leaf.instrument (a.map .meter) : Leaf σ L))).toList)
        [([], .instrument (a.map .histogram))] (leavesOfPanels ps ++ leavesOfHandlers hs)
      simpa only [List.append_assoc] using this

variable [DecidableEq L] [Custom σ L]

theorem visited_mem {o : Observation L} {e : Env} {x : Placed σ L} (hr : Reached o.label x) {k k' : Nat}
    {l l' : List (Placed σ L)} {ns : List Nat} (hv : Visited e o k l l' ns k') (hm : x ∈ l) :
    ∃ k₁ k₂ leaf m, x.2.react o e k₁ = some ((leaf, m), k₂) ∧ (x.1, leaf) ∈ l' := by
  induction hv with
  | nil => simp at hm
  | reached _ hre _ ih =>
    rcases List.mem_cons.mp hm with rfl | hm
    · exact ⟨_, _, _, _, hre, by simp⟩
    · obtain ⟨k₁, k₂, i, m, h1, h2⟩ := ih hm
      exact ⟨k₁, k₂, i, m, h1, List.mem_cons_of_mem _ h2⟩
  | skipped hn _ ih =>
    rcases List.mem_cons.mp hm with rfl | hm
    · exact absurd hr hn
    · obtain ⟨k₁, k₂, i, m, h1, h2⟩ := ih hm
      exact ⟨k₁, k₂, i, m, h1, List.mem_cons_of_mem _ h2⟩

/-- What was there before and what was gained reacts to every observation that its whole path accepts (and only to
those, C18). -/
theorem C20_all_react {p p' p'' : Panel σ L} {new : List (Placed σ L)} (hg : Gains p p' new) {o : Observation L}
    {n : Nat} {e : Env} {k k' : Nat} (h : p'.handle o e k = some ((p'', n), k')) {x : Placed σ L}
    (hx : x ∈ p.leaves ∨ x ∈ behind p.head.labelFilter new) (hr : Reached o.label x) :
    ∃ k₁ k₂ leaf m, x.2.react o e k₁ = some ((leaf, m), k₂) ∧ (x.1, leaf) ∈ p''.leaves := by
  obtain ⟨⟨ns, hv, -⟩, -⟩ := C18_panel h
  exact visited_mem hr hv (hg.1.mem_iff.mpr (List.mem_append.mpr hx.symm))

/-- In particular an instrument added to a panel is updated by every observation that the panel's and its own filter
accept. -/
theorem C20_reacts {p p' p'' : Panel σ L} {a : InstrumentAdapter L (Instrument σ)}
    (hg : Gains p p' [([], .instrument a)]) {o : Observation L} (hp : p.head.labelFilter.accepts o.label = true)
    (ha : a.labelFilter.accepts o.label = true) {n : Nat} {e : Env} {k k' : Nat}
    (h : p'.handle o e k = some ((p'', n), k')) :
    ∃ k₁ k₂ i m, Instrument.update L a.instrument (a.modifyUpdate.modify o.label o.content) e k₁ = some ((i, m), k₂) ∧
      ([p.head.labelFilter], Leaf.instrument { a with instrument := i }) ∈ p''.leaves := by
  obtain ⟨k₁, k₂, leaf, m, h1, h2⟩ := C20_all_react hg h (x := ([p.head.labelFilter], .instrument a))
    (.inr (by simp [behind])) ⟨by simpa using hp, ha⟩
  obtain ⟨i, hi, rfl⟩ := (C18_reached_instrument ha).mp h1
  exact ⟨k₁, k₂, i, m, hi, h2⟩

/-- Two counters in a panel: both count. -/
example (e : Env) (k : Nat) :
    ((((Panel.mk { labelFilter := .acceptAll, activity := ⟨0, none, true⟩ } [] [] [] : Panel Empty Nat).addCounter
      (.new { name := "a", count := 0 })).addCounter (.new { name := "b", count := 0 })).handle (.observed 1 5 0) e k).map (·.1.2) = some 2 := rfl

example (e : Env) (k : Nat) := C20_reacts (C20_add_counter (σ := Empty) (L := Nat) exampleTree (.accept (.one 2) { name := "new" }))
  (o := .observedOne 2 0) (e := e) (k := k) rfl rfl rfl
example (e : Env) (k : Nat) := C20_all_react (C20_add_counter (σ := Empty) (L := Nat) exampleTree (.accept (.one 2) { name := "new" }))
  (o := .observedOne 2 0) (e := e) (k := k) rfl (.inr (.head _)) (by simp [Reached]; decide)

end Metrix
