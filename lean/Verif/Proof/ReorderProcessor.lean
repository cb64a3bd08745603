import Verif.Proof.ReorderTree

/-! The same for cockpits and processors, and for what happens to them. -/

namespace Metrix
variable {σ L : Type} {e : Env} {t : Int}

theorem PanelsReordered.append {ps ps' qs qs' : List (Panel σ L)} (h : PanelsReordered ps ps') (hq : PanelsReordered qs qs') :
    PanelsReordered (ps ++ qs) (ps' ++ qs') :=
  match h with
  | .nil => hq
  | .cons h1 h2 => .cons h1 (h2.append hq)
  | .swap h1 h2 h3 => .swap h1 h2 (h3.append hq)
  | .trans h1 h2 => .trans (h1.append hq) (h2.append (.refl qs'))

theorem HandlersReordered.prepend : ∀ (ps : List (Handler σ L)) {qs qs' : List (Handler σ L)}, HandlersReordered qs qs' →
    HandlersReordered (ps ++ qs) (ps ++ qs')
  | [], _, _, h => h
  | p :: ps, _, _, h => .cons (.refl p) (HandlersReordered.prepend ps h)

theorem HandlersReordered.append {ps ps' qs qs' : List (Handler σ L)} (h : HandlersReordered ps ps') (hq : HandlersReordered qs qs') :
    HandlersReordered (ps ++ qs) (ps' ++ qs') :=
  match h with
  | .nil => hq
  | .cons h1 h2 => .cons h1 (h2.append hq)
  | .swap h1 h2 h3 => .swap h1 h2 (h3.append hq)
  | .panel hg hl h1 h2 => by
    rw [List.append_assoc]
    exact .panel hg hl h1 (h2.append hq)
  | .cockpit hg h1 h2 h3 => by
    rw [List.append_assoc, List.append_assoc]
    exact .cockpit hg h1 h2 (h3.append hq)
  | .symm h1 => .trans (.symm (h1.append (.refl qs))) (.prepend _ hq)
  | .trans h1 h2 => .trans (h1.append hq) (h2.append (.refl qs'))

theorem SnapshootersReordered.append {ps ps' qs qs' : List (Snapshooter σ L)} (h : SnapshootersReordered ps ps')
    (hq : SnapshootersReordered qs qs') : SnapshootersReordered (ps ++ qs) (ps' ++ qs') :=
  match h with
  | .nil => hq
  | .cons h1 h2 => .cons h1 (h2.append hq)
  | .swap h1 h2 h3 => .swap h1 h2 (h3.append hq)
  | .trans h1 h2 => .trans (h1.append hq) (h2.append (.refl qs'))

theorem CockpitsReordered.append {ps ps' qs qs' : List (Cockpit σ L)} (h : CockpitsReordered ps ps') (hq : CockpitsReordered qs qs') :
    CockpitsReordered (ps ++ qs) (ps' ++ qs') := by
  induction h generalizing qs qs' with
  | nil => exact hq
  | cons h1 _ ih => exact .cons h1 (ih hq)
  | swap hn h1 h2 _ ih => exact .swap hn h1 h2 (ih hq)
  | trans _ _ ih1 ih2 => exact .trans (ih1 hq) (ih2 (.refl _))

theorem PanelsReordered.filter {f : Panel σ L → Bool} (hf : ∀ p p' : Panel σ L, p.name = p'.name → f p = f p') {ps ps' : List (Panel σ L)}
    (h : PanelsReordered ps ps') : PanelsReordered (ps.filter f) (ps'.filter f) :=
  match h with
  | .nil => .nil
  | .cons (p := p) (p' := p') h1 h2 => by
    have ih := h2.filter hf
    rw [List.filter_cons, List.filter_cons, hf p p' h1.name]
    split
    · exact .cons h1 ih
    · exact ih
  | .swap (p := p) (p' := p') (q := q) (q' := q') h1 h2 h3 => by
    have ih := h3.filter hf
    simp only [List.filter_cons, hf p p' h1.name, hf q q' h2.name]
    split <;> split
    · exact .swap h1 h2 ih
    · exact .cons h1 ih
    · exact .cons h2 ih
    · exact ih
  | .trans h1 h2 => .trans (h1.filter hf) (h2.filter hf)

theorem CockpitsReordered.filter {f : Cockpit σ L → Bool} (hf : ∀ p p' : Cockpit σ L, p.name = p'.name → f p = f p')
    {ps ps' : List (Cockpit σ L)} (h : CockpitsReordered ps ps') : CockpitsReordered (ps.filter f) (ps'.filter f) := by
  induction h with
  | nil => exact .nil
  | @cons c c' _ _ h1 _ ih =>
    rw [List.filter_cons, List.filter_cons, hf c c' h1.name]
    split
    · exact .cons h1 ih
    · exact ih
  | @swap c c' d d' _ _ hn h1 h2 _ ih =>
    simp only [List.filter_cons, hf c c' h1.name, hf d d' h2.name]
    split <;> split
    · exact .swap hn h1 h2 ih
    · exact .cons h1 ih
    · exact .cons h2 ih
    · exact ih
  | trans _ _ ih1 ih2 => exact .trans ih1 ih2

theorem PanelsReordered.names {ps ps' : List (Panel σ L)} (h : PanelsReordered ps ps') (n : String) :
    (∃ p ∈ ps, p.name = some n) ↔ ∃ p ∈ ps', p.name = some n :=
  match h with
  | .nil => Iff.rfl
  | .cons h1 h2 => by
    have ih := h2.names n
    simp only [List.mem_cons, or_and_right, exists_or, exists_eq_left, h1.name, ih]
  | .swap h1 h2 h3 => by
    have ih := h3.names n
    simp only [List.mem_cons, or_and_right, exists_or, exists_eq_left, h1.name, h2.name, ih]
    exact or_left_comm
  | .trans h1 h2 => (h1.names n).trans (h2.names n)

theorem CockpitsReordered.names {cs cs' : List (Cockpit σ L)} (h : CockpitsReordered cs cs') (n : String) :
    (∃ c ∈ cs, c.name = some n) ↔ ∃ c ∈ cs', c.name = some n := by
  induction h with
  | nil => rfl
  | cons h1 _ ih => simp only [List.mem_cons, or_and_right, exists_or, exists_eq_left, h1.name, ih]
  | swap _ h1 h2 _ ih =>
    simp only [List.mem_cons, or_and_right, exists_or, exists_eq_left, h1.name, h2.name, ih]
    exact or_left_comm
  | trans _ _ ih1 ih2 => exact ih1.trans ih2

theorem Cockpit.Reordered.addPanel {c c' : Cockpit σ L} (h : c.Reordered c') {p p' : Panel σ L} (hp : p.Reordered p') :
    (c.addPanel p).Reordered (c'.addPanel p') := by
  have added : Cockpit.Reordered { c with panels := c.panels ++ [p] } { c' with panels := c'.panels ++ [p'] } :=
    ⟨h.head, h.panels.append (.cons hp .nil), h.handlers, h.snapshooters⟩
  unfold Cockpit.addPanel
  rw [← hp.name]
  cases hn : p.name with
  | none => exact added
  | some n =>
    dsimp only
    have hi := h.panels.names n
    split <;> rename_i h1 <;> split <;> rename_i h2
    · exact h
    · exact absurd ((anyPanel _ _).2 (hi.1 ((anyPanel _ _).1 h1))) h2
    · exact absurd ((anyPanel _ _).2 (hi.2 ((anyPanel _ _).1 h2))) h1
    · exact added

theorem Cockpit.Reordered.removePanel {c c' : Cockpit σ L} (h : c.Reordered c') (m : String) :
    (c.removePanel m).Reordered (c'.removePanel m) :=
  ⟨h.head, h.panels.filter fun p p' hn => by rw [hn], h.handlers, h.snapshooters⟩

theorem Cockpit.addPanel_name (c : Cockpit σ L) (p : Panel σ L) : (c.addPanel p).name = c.name := by
  unfold Cockpit.addPanel
  split
  · split <;> rfl
  · rfl

theorem CockpitsReordered.modifyFirst {n : String} {f f' : Cockpit σ L → Cockpit σ L}
    (hf : ∀ c c' : Cockpit σ L, c.Reordered c' → (f c).Reordered (f' c')) (hr : ∀ c c' : Cockpit σ L, c.Reordered c' → (f' c).Reordered (f' c'))
    (hn : ∀ c, (f c).name = c.name) {cs cs' : List (Cockpit σ L)}
    (h : CockpitsReordered cs cs') : CockpitsReordered (ProcessorState.modifyFirst n f cs) (ProcessorState.modifyFirst n f' cs') := by
  induction h generalizing f f' with
  | nil => exact .nil
  | cons h1 h2 ih =>
    rw [ProcessorState.modifyFirst, ProcessorState.modifyFirst, h1.name]
    split
    · exact .cons (hf _ _ h1) h2
    · exact .cons h1 (ih hf hr hn)
  | @swap c c' d d' _ _ ha h1 h2 h3 ih =>
    simp only [ProcessorState.modifyFirst, ← h1.name, ← h2.name]
    by_cases e1 : c.name = some n
    · have e2 : d.name ≠ some n := ha n e1
      simp only [beq_iff_eq, if_pos e1, if_neg e2]
      exact .swap (by rw [hn]; exact ha) (hf _ _ h1) h2 h3
    · by_cases e2 : d.name = some n
      · simp only [beq_iff_eq, if_pos e2, if_neg e1]
        exact .swap (by rw [hn]; exact ha) h1 (hf _ _ h2) h3
      · simp only [beq_iff_eq, if_neg e2, if_neg e1]
        exact .swap ha h1 h2 (ih hf hr hn)
  | trans _ _ ih1 ih2 =>
    refine .trans (ih1 hf hr hn) (ih2 hr hr fun c => ?_)
    exact (hf c c (.refl c)).name.symm.trans (hn c)

/-! ## Processors -/

theorem ProcessorState.Reordered.addCockpit {s s' : ProcessorState σ L} (h : s.Reordered s') {c c' : Cockpit σ L} (hc : c.Reordered c') :
    (s.addCockpit c).Reordered (s'.addCockpit c') := by
  have added : ProcessorState.Reordered { s with cockpits := s.cockpits ++ [c] } { s' with cockpits := s'.cockpits ++ [c'] } :=
    ⟨h.name, h.descr, h.activity, h.cockpits.append (.cons hc .nil), h.handlers, h.snapshooters⟩
  unfold ProcessorState.addCockpit
  rw [← hc.name]
  cases hn : c.name with
  | none => exact added
  | some n =>
    dsimp only
    have hi := h.cockpits.names n
    split <;> rename_i h1 <;> split <;> rename_i h2
    · exact h
    · exact absurd ((anyCockpit _ _).2 (hi.1 ((anyCockpit _ _).1 h1))) h2
    · exact absurd ((anyCockpit _ _).2 (hi.2 ((anyCockpit _ _).1 h2))) h1
    · exact added

theorem ProcessorState.Reordered.addHandler {s s' : ProcessorState σ L} (h : s.Reordered s') {x x' : Handler σ L} (hx : x.Reordered x') :
    (s.addHandler x).Reordered (s'.addHandler x') :=
  ⟨h.name, h.descr, h.activity, h.cockpits, h.handlers.append (.cons hx .nil), h.snapshooters⟩

theorem ProcessorState.Reordered.activeAt {s s' : ProcessorState σ L} (h : s.Reordered s') (a : Int) :
    (s.activeAt a).Reordered (s'.activeAt a) :=
  ⟨h.name, h.descr, congrArg (fun x : Activity => { x with lastActivity := a }) h.activity, h.cockpits, h.handlers,
    h.snapshooters⟩

theorem ProcessorState.Reordered.set {s s' : ProcessorState σ L} (h : s.Reordered s') {c c' : Call σ L} (hc : c.Reordered c') :
    (s.set c).Reordered (s'.set c') := by
  cases hc with
  | addCockpit hc => exact h.addCockpit hc
  | addHandler hx => exact h.addHandler hx
  | addSnapshooter hx => exact ⟨h.name, h.descr, h.activity, h.cockpits, h.handlers, h.snapshooters.append (.cons hx .nil)⟩
  | setName n => exact ⟨rfl, h.descr, h.activity, h.cockpits, h.handlers, h.snapshooters⟩
  | setInactivityLimit d =>
    exact ⟨h.name, h.descr, congrArg (fun x : Activity => { x with maxInactivity := some d }) h.activity, h.cockpits, h.handlers,
      h.snapshooters⟩
  | setShowActivityState b =>
    exact ⟨h.name, h.descr, congrArg (fun x : Activity => { x with show_ := b }) h.activity, h.cockpits, h.handlers,
      h.snapshooters⟩

/-- The same messages, except for reordered parts. -/
theorem ProcessorState.Reordered.configured {s s' : ProcessorState σ L} (h : s.Reordered s') (n : String) {f f' : Cockpit σ L → Cockpit σ L}
    (hf : ∀ c c' : Cockpit σ L, c.Reordered c' → (f c).Reordered (f' c')) (hr : ∀ c c' : Cockpit σ L, c.Reordered c' → (f' c).Reordered (f' c'))
    (hn : ∀ c, (f c).name = c.name) :
    ProcessorState.Reordered { s with cockpits := ProcessorState.modifyFirst n f s.cockpits }
      { s' with cockpits := ProcessorState.modifyFirst n f' s'.cockpits } :=
  ⟨h.name, h.descr, h.activity, h.cockpits.modifyFirst hf hr hn, h.handlers, h.snapshooters⟩

/-! ## Parts that are added in another order -/

theorem Apart.symm {n n' : Option String} (h : Apart n n') : Apart n' n := fun m h1 h2 => h m h2 h1

/-- One cockpit after the other. -/
theorem addCockpits_swap (s : ProcessorState σ L) {c d : Cockpit σ L} (hn : Apart c.name d.name) :
    ((s.addCockpit c).addCockpit d).Reordered ((s.addCockpit d).addCockpit c) := by
  have taken : ∀ (x : Cockpit σ L) (s : ProcessorState σ L), (∃ m, x.name = some m ∧ ∃ y ∈ s.cockpits, y.name = some m) →
      s.addCockpit x = s := by
    rintro x s ⟨m, h1, h2⟩
    unfold ProcessorState.addCockpit
    rw [h1]
    exact if_pos ((anyCockpit _ _).2 h2)
  have free : ∀ (x : Cockpit σ L) (s : ProcessorState σ L), (¬ ∃ m, x.name = some m ∧ ∃ y ∈ s.cockpits, y.name = some m) →
      s.addCockpit x = { s with cockpits := s.cockpits ++ [x] } := by
    intro x s h
    unfold ProcessorState.addCockpit
    split
    · rename_i m hm
      rw [if_neg]
      intro h1
      exact h ⟨m, hm, (anyCockpit _ _).1 h1⟩
    · rfl
  have other : ∀ (x y : Cockpit σ L) (s : ProcessorState σ L), Apart x.name y.name →
      ((∃ m, x.name = some m ∧ ∃ z ∈ s.cockpits ++ [y], z.name = some m) ↔ ∃ m, x.name = some m ∧ ∃ z ∈ s.cockpits, z.name = some m) := by
    intro x y s h
    refine exists_congr fun m => and_congr_right fun hm => ?_
    simp only [List.mem_append, List.mem_singleton, or_and_right, exists_or, exists_eq_left]
    exact or_iff_left (h m hm)
  by_cases h1 : ∃ m, c.name = some m ∧ ∃ y ∈ s.cockpits, y.name = some m
  · rw [taken c s h1]
    by_cases h2 : ∃ m, d.name = some m ∧ ∃ y ∈ s.cockpits, y.name = some m
    · rw [taken d s h2, taken c s h1]
      exact .refl _
    · rw [free d s h2, taken c _ ((other c d s hn).2 h1)]
      exact .refl _
  · rw [free c s h1]
    by_cases h2 : ∃ m, d.name = some m ∧ ∃ y ∈ s.cockpits, y.name = some m
    · rw [taken d s h2, free c s h1, taken d _ ((other d c s hn.symm).2 h2)]
      exact .refl _
    · rw [free d s h2, free c _ fun h => h1 ((other c d s hn).1 h), free d _ fun h => h2 ((other d c s hn.symm).1 h)]
      refine ⟨rfl, rfl, rfl, ?_, .refl _, .refl _⟩
      simp only [List.append_assoc]
      exact (CockpitsReordered.refl _).append (.swap hn (.refl _) (.refl _) .nil)

/-- One panel after the other. -/
theorem addPanels_swap (c : Cockpit σ L) {p q : Panel σ L} (hn : Apart p.name q.name) :
    ((c.addPanel p).addPanel q).Reordered ((c.addPanel q).addPanel p) := by
  have taken : ∀ (x : Panel σ L) (c : Cockpit σ L), (∃ m, x.name = some m ∧ ∃ y ∈ c.panels, y.name = some m) → c.addPanel x = c := by
    rintro x c ⟨m, h1, h2⟩
    unfold Cockpit.addPanel
    rw [h1]
    exact if_pos ((anyPanel _ _).2 h2)
  have free : ∀ (x : Panel σ L) (c : Cockpit σ L), (¬ ∃ m, x.name = some m ∧ ∃ y ∈ c.panels, y.name = some m) →
      c.addPanel x = { c with panels := c.panels ++ [x] } := by
    intro x c h
    unfold Cockpit.addPanel
    split
    · rename_i m hm
      rw [if_neg]
      intro h1
      exact h ⟨m, hm, (anyPanel _ _).1 h1⟩
    · rfl
  have other : ∀ (x y : Panel σ L) (c : Cockpit σ L), Apart x.name y.name →
      ((∃ m, x.name = some m ∧ ∃ z ∈ c.panels ++ [y], z.name = some m) ↔ ∃ m, x.name = some m ∧ ∃ z ∈ c.panels, z.name = some m) := by
    intro x y s h
    refine exists_congr fun m => and_congr_right fun hm => ?_
    simp only [List.mem_append, List.mem_singleton, or_and_right, exists_or, exists_eq_left]
    exact or_iff_left (h m hm)
  by_cases h1 : ∃ m, p.name = some m ∧ ∃ y ∈ c.panels, y.name = some m
  · rw [taken p c h1]
    by_cases h2 : ∃ m, q.name = some m ∧ ∃ y ∈ c.panels, y.name = some m
    · rw [taken q c h2, taken p c h1]
      exact .refl _
    · rw [free q c h2, taken p _ ((other p q c hn).2 h1)]
      exact .refl _
  · rw [free p c h1]
    by_cases h2 : ∃ m, q.name = some m ∧ ∃ y ∈ c.panels, y.name = some m
    · rw [taken q c h2, free p c h1, taken q _ ((other q p c hn.symm).2 h2)]
      exact .refl _
    · rw [free q c h2, free p _ fun h => h1 ((other p q c hn).1 h), free q _ fun h => h2 ((other q p c hn.symm).1 h)]
      refine ⟨rfl, ?_, .refl _, .refl _⟩
      simp only [List.append_assoc]
      exact (PanelsReordered.refl _).append (.swap (.refl _) (.refl _) .nil)

theorem modifyFirst_names {n : String} {f : Cockpit σ L → Cockpit σ L} (hn : ∀ c, (f c).name = c.name) (cs : List (Cockpit σ L)) :
    (ProcessorState.modifyFirst n f cs).map Cockpit.name = cs.map Cockpit.name := by
  induction cs with
  | nil => rfl
  | cons c cs ih =>
    rw [ProcessorState.modifyFirst]
    split
    · rw [List.map_cons, hn]; rfl
    · rw [List.map_cons, ih]; rfl

theorem modifyFirst_twice {n : String} {f g : Cockpit σ L → Cockpit σ L} (hg : ∀ c, (g c).name = c.name)
    (cs : List (Cockpit σ L)) : ProcessorState.modifyFirst n f (ProcessorState.modifyFirst n g cs) =
      ProcessorState.modifyFirst n (fun c => f (g c)) cs := by
  induction cs with
  | nil => rfl
  | cons c cs ih =>
    simp only [ProcessorState.modifyFirst]
    by_cases h : c.name = some n
    · simp only [beq_iff_eq, if_pos h, ProcessorState.modifyFirst, hg]
    · simp only [beq_iff_eq, if_neg h, ProcessorState.modifyFirst, ih]

theorem modifyFirst_comm {n m : String} (hnm : n ≠ m) {f g : Cockpit σ L → Cockpit σ L} (hf : ∀ c, (f c).name = c.name)
    (hg : ∀ c, (g c).name = c.name) (cs : List (Cockpit σ L)) :
    ProcessorState.modifyFirst n f (ProcessorState.modifyFirst m g cs) =
      ProcessorState.modifyFirst m g (ProcessorState.modifyFirst n f cs) := by
  induction cs with
  | nil => rfl
  | cons c cs ih =>
    simp only [ProcessorState.modifyFirst]
    by_cases h : c.name = some n
    · have h' : c.name ≠ some m := fun h' => hnm (Option.some.inj (h.symm.trans h'))
      simp only [beq_iff_eq, if_pos h, if_neg h', ProcessorState.modifyFirst, hf]
    · by_cases h' : c.name = some m
      · simp only [beq_iff_eq, if_pos h', if_neg h, ProcessorState.modifyFirst, hg]
      · simp only [beq_iff_eq, if_neg h', if_neg h, ProcessorState.modifyFirst, ih]

theorem modifyFirst_append {n : String} {f : Cockpit σ L → Cockpit σ L} {c : Cockpit σ L} (hc : c.name ≠ some n) (cs : List (Cockpit σ L)) :
    ProcessorState.modifyFirst n f (cs ++ [c]) = ProcessorState.modifyFirst n f cs ++ [c] := by
  induction cs with
  | nil => simp only [List.nil_append, ProcessorState.modifyFirst, beq_iff_eq, if_neg hc]
  | cons d cs ih =>
    simp only [List.cons_append, ProcessorState.modifyFirst]
    split
    · rfl
    · rw [ih]; rfl

theorem ProcessorState.Reordered.swapCalls (s : ProcessorState σ L) {c d : Call σ L} (h : c.Swaps d ∨ d.Swaps c) :
    ((s.set c).set d).Reordered ((s.set d).set c) := by
  have added : ∀ (s : ProcessorState σ L) (h : Handler σ L) (c : Cockpit σ L), (s.addHandler h).addCockpit c = (s.addCockpit c).addHandler h := by
    intro s h c
    unfold ProcessorState.addCockpit ProcessorState.addHandler
    split
    · split <;> rfl
    · rfl
  have added' : ∀ (s : ProcessorState σ L) (x : Snapshooter σ L) (c : Cockpit σ L),
      (s.addSnapshooter x).addCockpit c = (s.addCockpit c).addSnapshooter x := by
    intro s h c
    unfold ProcessorState.addCockpit ProcessorState.addSnapshooter
    split
    · split <;> rfl
    · rfl
  have key : ∀ {c d : Call σ L}, c.Swaps d → ((s.set c).set d).Reordered ((s.set d).set c) ∧ ((s.set d).set c).Reordered ((s.set c).set d) := by
    intro c d h
    cases h with
    | handlers x y =>
      refine ⟨⟨rfl, rfl, rfl, .refl _, ?_, .refl _⟩, ⟨rfl, rfl, rfl, .refl _, ?_, .refl _⟩⟩ <;>
      · simp only [ProcessorState.set, ProcessorState.addHandler, List.append_assoc]
        exact (HandlersReordered.refl _).append (.swap (.refl _) (.refl _) .nil)
    | cockpits hn => exact ⟨addCockpits_swap s hn, addCockpits_swap s hn.symm⟩
    | snapshooters x y =>
      refine ⟨⟨rfl, rfl, rfl, .refl _, .refl _, ?_⟩, ⟨rfl, rfl, rfl, .refl _, .refl _, ?_⟩⟩ <;>
      · simp only [ProcessorState.set, ProcessorState.addSnapshooter, List.append_assoc]
        exact (SnapshootersReordered.refl _).append (.swap (.refl _) (.refl _) .nil)
    | handlerCockpit x c =>
      show ((s.addHandler x).addCockpit c).Reordered ((s.addCockpit c).addHandler x) ∧ ((s.addCockpit c).addHandler x).Reordered _
      rw [← added]
      exact ⟨.refl _, .refl _⟩
    | handlerSnapshooter x y => exact ⟨.refl _, .refl _⟩
    | snapshooterCockpit x c =>
      show ((s.addSnapshooter x).addCockpit c).Reordered ((s.addCockpit c).addSnapshooter x) ∧ ((s.addCockpit c).addSnapshooter x).Reordered _
      rw [← added']
      exact ⟨.refl _, .refl _⟩
  rcases h with h | h
  · exact (key h).1
  · exact (key h).2

/-- What a message that is not an observation does. -/
def ProcessorState.adopt (s : ProcessorState σ L) : Message σ L → ProcessorState σ L
  | .observation _ => s
  | .addCockpit c => s.addCockpit c
  | .removeCockpit n => s.removeCockpit n
  | .addHandler h => s.addHandler h
  | .addPanelToCockpit n p => { s with cockpits := ProcessorState.modifyFirst n (·.addPanel p) s.cockpits }
  | .removePanelFromCockpit n m => { s with cockpits := ProcessorState.modifyFirst n (·.removePanel m) s.cockpits }

theorem ProcessorState.Reordered.adopt {s s' : ProcessorState σ L} (h : s.Reordered s') {x x' : Message σ L} (hx : x.Reordered x') :
    (s.adopt x).Reordered (s'.adopt x') := by
  cases hx with
  | observation o => exact h
  | addCockpit hc => exact h.addCockpit hc
  | removeCockpit n => exact ⟨h.name, h.descr, h.activity, h.cockpits.filter fun p p' hn => by rw [hn], h.handlers, h.snapshooters⟩
  | addHandler hx => exact h.addHandler hx
  | addPanelToCockpit n hp =>
    exact h.configured n (fun c c' hc => hc.addPanel hp) (fun c c' hc => hc.addPanel (.refl _)) fun c => c.addPanel_name _
  | removePanelFromCockpit n m =>
    exact h.configured n (fun c c' hc => hc.removePanel m) (fun c c' hc => hc.removePanel m) fun c => rfl

theorem ProcessorState.adopt_activeAt (s : ProcessorState σ L) (x : Message σ L) (a : Int) :
    (s.activeAt a).adopt x = (s.adopt x).activeAt a := by
  cases x with
  | addCockpit c =>
    show (s.activeAt a).addCockpit c = (s.addCockpit c).activeAt a
    unfold ProcessorState.addCockpit ProcessorState.activeAt
    split
    · split <;> rfl
    · rfl
  | _ => rfl

theorem ProcessorState.Reordered.swapMessages (s : ProcessorState σ L) {x y : Message σ L} (h : x.Swaps y ∨ y.Swaps x) :
    ((s.adopt x).adopt y).Reordered ((s.adopt y).adopt x) := by
  have added : ∀ (s : ProcessorState σ L) (h : Handler σ L) (c : Cockpit σ L), (s.addHandler h).addCockpit c = (s.addCockpit c).addHandler h := by
    intro s h c
    unfold ProcessorState.addCockpit ProcessorState.addHandler
    split
    · split <;> rfl
    · rfl
  have key : ∀ {x y : Message σ L}, x.Swaps y →
      ((s.adopt x).adopt y).Reordered ((s.adopt y).adopt x) ∧ ((s.adopt y).adopt x).Reordered ((s.adopt x).adopt y) := by
    intro x y h
    cases h with
    | handlers x y =>
      refine ⟨⟨rfl, rfl, rfl, .refl _, ?_, .refl _⟩, ⟨rfl, rfl, rfl, .refl _, ?_, .refl _⟩⟩ <;>
      · simp only [ProcessorState.adopt, ProcessorState.addHandler, List.append_assoc]
        exact (HandlersReordered.refl _).append (.swap (.refl _) (.refl _) .nil)
    | cockpits hn => exact ⟨addCockpits_swap s hn, addCockpits_swap s hn.symm⟩
    | @panels n n' p q hn =>
      have same : ∀ p q : Panel σ L, n ≠ n' ∨ Apart p.name q.name →
          CockpitsReordered (ProcessorState.modifyFirst n' (·.addPanel q) (ProcessorState.modifyFirst n (·.addPanel p) s.cockpits))
            (ProcessorState.modifyFirst n (·.addPanel p) (ProcessorState.modifyFirst n' (·.addPanel q) s.cockpits)) := by
        intro p q hn
        by_cases e : n = n'
        · subst e
          rw [modifyFirst_twice (fun c => c.addPanel_name _), modifyFirst_twice (fun c => c.addPanel_name _)]
          have hn := hn.resolve_left fun h => h rfl
          refine (CockpitsReordered.refl _).modifyFirst (f := fun c => (c.addPanel p).addPanel q) (f' := fun c => (c.addPanel q).addPanel p) ?_ ?_ ?_
          · intro c c' hc
            have h1 := addPanels_swap c hn
            have h2 := (hc.addPanel (.refl q)).addPanel (.refl p)
            exact ⟨h1.head.trans h2.head, h1.panels.trans h2.panels, h1.handlers.trans h2.handlers, h1.snapshooters.trans h2.snapshooters⟩
          · exact fun c c' hc => (hc.addPanel (.refl q)).addPanel (.refl p)
          · exact fun c => (Cockpit.addPanel_name _ _).trans (Cockpit.addPanel_name _ _)
        · rw [modifyFirst_comm (Ne.symm e) (fun c => c.addPanel_name _) (fun c => c.addPanel_name _)]
          exact .refl _
      have same' : ∀ p q : Panel σ L, n ≠ n' ∨ Apart p.name q.name →
          CockpitsReordered (ProcessorState.modifyFirst n (·.addPanel p) (ProcessorState.modifyFirst n' (·.addPanel q) s.cockpits))
            (ProcessorState.modifyFirst n' (·.addPanel q) (ProcessorState.modifyFirst n (·.addPanel p) s.cockpits)) := by
        intro p q hn
        by_cases e : n = n'
        · subst e
          exact same q p (.inr (hn.resolve_left fun h => h rfl).symm)
        · rw [modifyFirst_comm (Ne.symm e) (fun c => c.addPanel_name _) (fun c => c.addPanel_name _)]
          exact .refl _
      exact ⟨⟨rfl, rfl, rfl, same p q hn, .refl _, .refl _⟩, ⟨rfl, rfl, rfl, same' p q hn, .refl _, .refl _⟩⟩
    | handlerCockpit x c =>
      show ((s.addHandler x).addCockpit c).Reordered ((s.addCockpit c).addHandler x) ∧ ((s.addCockpit c).addHandler x).Reordered _
      rw [← added]
      exact ⟨.refl _, .refl _⟩
    | handlerPanel x n p => exact ⟨.refl _, .refl _⟩
    | @cockpitPanel c n p hn =>
      have : (s.adopt (.addCockpit c)).adopt (.addPanelToCockpit n p) = (s.adopt (.addPanelToCockpit n p)).adopt (.addCockpit c) := by
        have names : ∀ m, (∃ x ∈ ProcessorState.modifyFirst n (·.addPanel p) s.cockpits, x.name = some m) ↔ ∃ x ∈ s.cockpits, x.name = some m := by
          intro m
          simp only [← List.mem_map, modifyFirst_names (fun c => Cockpit.addPanel_name c p)]
        simp only [ProcessorState.adopt]
        unfold ProcessorState.addCockpit
        split
        · rename_i m hm
          split <;> rename_i h1 <;> split <;> rename_i h2
          · rfl
          · exact absurd ((anyCockpit _ _).2 ((names m).2 ((anyCockpit _ _).1 h1))) h2
          · exact absurd ((anyCockpit _ _).2 ((names m).1 ((anyCockpit _ _).1 h2))) h1
          · simp only [modifyFirst_append hn]
        · simp only [modifyFirst_append hn]
      rw [this]
      exact ⟨.refl _, .refl _⟩
  rcases h with h | h
  · exact (key h).1
  · exact (key h).2

theorem Message.Swaps.notObserved {x y : Message σ L} (h : x.Swaps y) : (∀ o, x ≠ .observation o) ∧ ∀ o, y ≠ .observation o := by
  cases h <;> exact ⟨nofun, nofun⟩

/-! ## What happens -/

section
variable [DecidableEq L] [Custom σ L]

theorem Cockpit.Reordered.handle (hc : StillAt σ L e) (hf : Frozen e t) (o : Observation L) {c c' : Cockpit σ L} (h : c.Reordered c') :
    HandlesAs e (fun d d' => d.Reordered d' ∧ d.name = c.name) (c.handle o) (c'.handle o) := by
  unfold Cockpit.handle
  refine .bindEq hf.now fun now => ?_
  refine .bind _ (h.handlers.handle hc hf o) ?_
  rintro ⟨a, n₁⟩ ⟨a', m₁⟩ ⟨h2, l2⟩
  refine .bind _ (h.panels.handle hc hf o) ?_
  rintro ⟨b, n₂⟩ ⟨b', m₂⟩ ⟨h1, l1⟩
  refine .pure ⟨⟨⟨?_, h1, h2, h.snapshooters⟩, rfl⟩, ?_⟩
  · exact congrArg (fun x : CockpitHead => { x with activity := { x.activity with lastActivity := now } }) h.head
  · dsimp only at l1 l2 ⊢
    omega

theorem CockpitsReordered.handle (hc : StillAt σ L e) (hf : Frozen e t) (o : Observation L) {cs cs' : List (Cockpit σ L)}
    (h : CockpitsReordered cs cs') : HandlesAs e CockpitsReordered (handleCockpits o cs) (handleCockpits o cs') := by
  simp only [handleCockpits_eq]
  induction h with
  | nil => exact .pure ⟨.nil, rfl⟩
  | cons h1 _ ih => exact handleAll_cons (h1.handle hc hf o) ih fun h1 h2 => .cons h1.1 h2
  | swap hn h1 h2 _ ih =>
    refine handleAll_swap (h1.handle hc hf o) (h2.handle hc hf o) ih fun h1 h2 h3 => .swap ?_ h1.1 h2.1 h3
    rw [h1.2, h2.2]
    exact hn
  | trans _ _ ih1 ih2 => exact ih1.trans ih2 fun _ _ _ a b => ⟨.trans a.1 b.1, a.2.trans b.2⟩

theorem ProcessorState.receive_adopt (dec : Decider) (s : ProcessorState σ L) (u : Tally) {x : Message σ L} (hx : ∀ o, x ≠ .observation o) :
    s.receive dec u x = pure (s.adopt x, { u with processed := u.processed + 1 }) := by
  cases x with
  | observation o => exact absurd rfl (hx o)
  | _ => rfl

theorem ProcessorState.Reordered.receive (hc : StillAt σ L e) (hf : Frozen e t) (dec : Decider) {s s' : ProcessorState σ L}
    (h : s.Reordered s') (u : Tally) {m m' : Message σ L} (hm : m.Reordered m') :
    M.Sync e (fun r r' => r.1.Reordered r'.1 ∧ r.2 = r'.2) (s.receive dec u m) (s'.receive dec u m') := by
  by_cases ho : ∃ o, m = .observation o
  · obtain ⟨o, rfl⟩ := ho
    cases hm
    unfold ProcessorState.receive
    refine .ite (.bind _ (h.cockpits.handle hc hf o) ?_) (.pure ⟨h, rfl⟩)
    rintro ⟨a, n₁⟩ ⟨a', m₁⟩ ⟨h1, l1⟩
    refine .bind _ (h.handlers.handle hc hf o) ?_
    rintro ⟨b, n₂⟩ ⟨b', m₂⟩ ⟨h2, l2⟩
    dsimp only at l1 l2
    subst l1 l2
    exact .pure ⟨⟨h.name, h.descr, h.activity, h1, h2, h.snapshooters⟩, rfl⟩
  · have h1 : ∀ o, m ≠ .observation o := fun o e => ho ⟨o, e⟩
    have h2 : ∀ o, m' ≠ .observation o := by
      intro o e
      subst e
      cases hm
      exact ho ⟨o, rfl⟩
    rw [ProcessorState.receive_adopt dec s u h1, ProcessorState.receive_adopt dec s' u h2]
    exact .pure ⟨h.adopt hm, rfl⟩

theorem play_adopt (e : Env) (s : ProcessorState σ L) (u : Tally) (m : Nat) (strategy : Strategy) {x : Message σ L}
    (hx : ∀ o, x ≠ .observation o) : Happening.play e (s, u) (.message m strategy x) =
      (strategy.decider (e.at m) 0).map fun _ => ((s.adopt x).activeAt (e.clock m), { u with processed := u.processed + 1 }) := by
  unfold Happening.play
  dsimp only
  cases h : strategy.decider (e.at m) 0 with
  | none => rw [M.run_bind_none h]; rfl
  | some d =>
    rw [M.run_bind_some h]
    simp only [ProcessorState.receive_adopt _ _ _ hx, pure_bind]
    rfl

theorem Happening.play_reordered (hc : CustomStill σ L) {e : Env} {s s' : ProcessorState σ L} (h : s.Reordered s') (u : Tally) (m : Nat)
    (strategy : Strategy) {x x' : Message σ L} (hx : x.Reordered x') :
    Option.Rel (fun r r' => r.1.Reordered r'.1 ∧ r.2 = r'.2) (Happening.play e (s, u) (.message m strategy x))
      (Happening.play e (s', u) (.message m strategy x')) := by
  unfold Happening.play
  dsimp only
  cases h1 : strategy.decider (e.at m) 0 with
  | none => rw [M.run_bind_none h1, M.run_bind_none h1]; exact .none
  | some d =>
    rw [M.run_bind_some h1, M.run_bind_some h1]
    have h2 := h.receive (hc.at e m) (e.at_frozen m) d.1 u hx
    cases h3 : s.receive d.1 u x (e.at m) d.2 with
    | none => rw [M.run_bind_none h3, M.run_bind_none (h2.none h3)]; exact .none
    | some r =>
      obtain ⟨r', k, h4, h5, h6⟩ := h2.some (k' := d.2) h3
      rw [M.run_bind_some h3, M.run_bind_some h4]
      exact .some ⟨h5.activeAt _, h6⟩

omit [DecidableEq L] [Custom σ L] in
theorem Message.Reordered.refl (x : Message σ L) : x.Reordered x := by
  cases x with
  | observation o => exact .observation o
  | addCockpit c => exact .addCockpit (.refl c)
  | removeCockpit n => exact .removeCockpit n
  | addHandler h => exact .addHandler (.refl h)
  | addPanelToCockpit n p => exact .addPanelToCockpit n (.refl p)
  | removePanelFromCockpit n m => exact .removePanelFromCockpit n m

omit [DecidableEq L] [Custom σ L] in
theorem ProcessorState.Reordered.setSame {s s' : ProcessorState σ L} (h : s.Reordered s') (c : Call σ L) : (s.set c).Reordered (s'.set c) := by
  cases c with
  | process m x => exact h
  | snapshot i d => exact h
  | addCockpit c => exact h.set (.addCockpit (.refl c))
  | addHandler x => exact h.set (.addHandler (.refl x))
  | addSnapshooter x => exact h.set (.addSnapshooter (.refl x))
  | setName n => exact h.set (.setName n)
  | setInactivityLimit d => exact h.set (.setInactivityLimit d)
  | setShowActivityState b => exact h.set (.setShowActivityState b)

/-- Both panic, or the states are reorderings of each other and the numbers are the same. -/
abbrev PlaysAs (x y : Option (ProcessorState σ L × Tally)) : Prop := Option.Rel (fun r r' => r.1.Reordered r'.1 ∧ r.2 = r'.2) x y

omit [DecidableEq L] [Custom σ L] in
theorem PlaysAs.bind {x y : Option (ProcessorState σ L × Tally)} {f g : ProcessorState σ L × Tally → Option (ProcessorState σ L × Tally)}
    (h : PlaysAs x y) (hf : ∀ {s s' : ProcessorState σ L} (u : Tally), s.Reordered s' → PlaysAs (f (s, u)) (g (s', u))) :
    PlaysAs (x >>= f) (y >>= g) := by
  cases h with
  | none => exact .none
  | @some a b h =>
    obtain ⟨s, u⟩ := a
    obtain ⟨s', u'⟩ := b
    obtain ⟨h, rfl⟩ := h
    exact hf u h

theorem plays_same (hc : CustomStill σ L) {e : Env} (hs : List (Happening σ L)) : ∀ {s s' : ProcessorState σ L} (u : Tally), s.Reordered s' →
    PlaysAs (hs.foldlM (Happening.play e) (s, u)) (hs.foldlM (Happening.play e) (s', u)) := by
  induction hs with
  | nil => exact fun u h => .some ⟨h, rfl⟩
  | cons a hs ih =>
    intro s s' u h
    rw [List.foldlM_cons, List.foldlM_cons]
    cases a with
    | message m strategy x => exact PlaysAs.bind (Happening.play_reordered hc h u m strategy (.refl x)) ih
    | set c => exact ih u (h.setSame c)

theorem HappeningsReordered.plays (hc : CustomStill σ L) {e : Env} {hs hs' : List (Happening σ L)} (h : HappeningsReordered hs hs') :
    ∀ {s s' : ProcessorState σ L} (u : Tally), s.Reordered s' →
      PlaysAs (hs.foldlM (Happening.play e) (s, u)) (hs'.foldlM (Happening.play e) (s', u)) := by
  induction h with
  | nil => exact fun u h => .some ⟨h, rfl⟩
  | message m strategy hx _ ih =>
    intro s s' u h
    rw [List.foldlM_cons, List.foldlM_cons]
    exact PlaysAs.bind (Happening.play_reordered hc h u m strategy hx) ih
  | set hc' _ ih => exact fun u h => ih u (h.set hc')
  | @swapMessages hs m strategy x y hx =>
    intro s s' u h
    obtain ⟨h1, h2⟩ : (∀ o, x ≠ .observation o) ∧ ∀ o, y ≠ .observation o := by
      rcases hx with hx | hx
      · exact hx.notObserved
      · exact hx.notObserved.symm
    simp only [List.foldlM_cons, play_adopt e _ _ m strategy h1, play_adopt e _ _ m strategy h2]
    cases strategy.decider (e.at m) 0 with
    | none => exact .none
    | some d =>
      refine plays_same hc hs _ ?_
      rw [ProcessorState.adopt_activeAt, ProcessorState.adopt_activeAt]
      exact (((h.adopt (.refl x)).adopt (.refl y)).trans (.swapMessages s' hx)).activeAt _ |>.activeAt _
  | swapCalls hx => exact fun u h => plays_same hc _ u (((h.setSame _).setSame _).trans (.swapCalls _ hx))
  | trans _ _ ih1 ih2 =>
    intro s s' u h
    have h1 := ih1 u h
    have h2 := ih2 u (ProcessorState.Reordered.refl s')
    revert h1 h2
    generalize List.foldlM (Happening.play e) (s, u) _ = x
    generalize List.foldlM (Happening.play e) (s', u) _ = y
    generalize List.foldlM (Happening.play e) (s', u) _ = z
    intro h1 h2
    cases h1 with
    | none => cases h2; exact .none
    | some h1 =>
      cases h2 with
      | some h2 => exact .some ⟨h1.1.trans h2.1, h1.2.trans h2.2⟩
end

/-! ## Snapshots -/

section
variable [Custom σ L] (hc : StillAt σ L e) (ha : CustomFrames σ L) (hf : Frozen e t)
include hc ha hf

theorem Cockpit.Reordered.put {c c' : Cockpit σ L} (h : c.Reordered c') (s s' : Snapshot) :
    PutsReordered e s s' (c.putSnapshot s false) (c'.putSnapshot s' false) := by
  unfold Cockpit.putSnapshot
  rw [h.head]
  refine .bind _ (also_putFlags hf c'.head.activity (levelFor c'.head.name s) (levelFor c'.head.name s')) ?_
  rintro ⟨g, l⟩ ⟨_, l'⟩ ⟨rfl, hl⟩
  have hl := AddsReordered.of_same hl
  refine .ite (.bind _ (h.panels.put hc ha hf l l') ?_) (.pure (.closeLevel _ hl))
  rintro ⟨b, s₂⟩ ⟨b', s₂'⟩ l2
  refine .bind _ (h.handlers.put hc ha hf s₂ s₂') ?_
  rintro ⟨d, s₄⟩ ⟨d', s₄'⟩ l3
  refine .bind _ (h.snapshooters.put hc ha hf s₄ s₄') ?_
  rintro ⟨c, s₃⟩ ⟨c', s₃'⟩ l4
  exact .pure (.closeLevel _ (((hl.andThen l2).andThen l3).andThen l4))

theorem CockpitsReordered.put [DecidableEq L] {cs cs' : List (Cockpit σ L)} (h : CockpitsReordered cs cs') :
    ∀ s s' : Snapshot, PutsReordered e s s' (putCockpits false cs s) (putCockpits false cs' s') := by
  simp only [putCockpits_eq]
  induction h with
  | nil => exact fun s s' => .pure (.refl _ _)
  | cons h1 _ ih => exact fun s s' => putAll_cons (h1.put hc ha hf s s') ih
  | swap _ h1 h2 _ ih => exact fun s s' => putAll_swap (h1.put hc ha hf) (h2.put hc ha hf) ih
  | trans _ _ ih1 ih2 => exact fun s s' => putAll_trans ih1 ih2

theorem ProcessorState.Reordered.put [DecidableEq L] {c c' : ProcessorState σ L} (h : c.Reordered c') (s s' : Snapshot) :
    PutsReordered e s s' (c.putSnapshot s false) (c'.putSnapshot s' false) := by
  unfold ProcessorState.putSnapshot
  rw [h.name, h.descr, h.activity]
  refine .bind _ (also_putFlags hf c'.activity (levelFor c'.name s) (levelFor c'.name s')) ?_
  rintro ⟨g, l⟩ ⟨_, l'⟩ ⟨rfl, hl⟩
  have hl := AddsReordered.of_same hl
  refine .ite (.bind _ (h.cockpits.put hc ha hf l l') ?_) (.pure (.closeLevel _ hl))
  rintro ⟨b, s₂⟩ ⟨b', s₂'⟩ l2
  refine .bind _ (h.handlers.put hc ha hf s₂ s₂') ?_
  rintro ⟨d, s₄⟩ ⟨d', s₄'⟩ l3
  refine .bind _ (h.snapshooters.put hc ha hf s₄ s₄') ?_
  rintro ⟨c, s₃⟩ ⟨c', s₃'⟩ l4
  exact .pure (.closeLevel _ (((hl.andThen l2).andThen l3).andThen l4))
end

end Metrix
