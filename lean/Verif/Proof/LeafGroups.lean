import Verif.Spec.Delivery
import Verif.Proof.Parts

/-! # The groups of the leaves of a processor -/

namespace Metrix
variable {σ L : Type}

/-! ## They are shown there -/

mutual
theorem Panel.leafGroups_length (p : Panel σ L) : p.leafGroups.length = p.leaves.length := by
  match p with
  | .mk h ps hs ss =>
    have : (h.leafGroups).length = (h.leaves (σ := σ)).length := by
      simp only [PanelHead.leafGroups, PanelHead.leaves, List.length_append]
      cases h.counter <;> cases h.gauge <;> cases h.meter <;> cases h.histogram <;> rfl
    simp only [Panel.leafGroups, Panel.leaves, behind, List.length_map, List.length_append, this, panels_leafGroups_length ps,
      handlers_leafGroups_length hs]

theorem panels_leafGroups_length (ps : List (Panel σ L)) : (leafGroupsOfPanels ps).length = (leavesOfPanels ps).length := by
  match ps with
  | [] => rfl
  | p :: ps => simp only [leafGroupsOfPanels, leavesOfPanels, List.length_append, p.leafGroups_length, panels_leafGroups_length ps]

theorem Handler.leafGroups_length (x : Handler σ L) : x.leafGroups.length = x.leaves.length := by
  match x with
  | .instrument _ => rfl
  | .gauge _ => rfl
  | .custom _ => rfl
  | .panel p => simp only [Handler.leafGroups, Handler.leaves, p.leafGroups_length]
  | .cockpit h ps hs ss =>
    simp only [Handler.leafGroups, Handler.leaves, List.length_map, List.length_cons, List.length_append, panels_leafGroups_length ps,
      handlers_leafGroups_length hs]

theorem handlers_leafGroups_length (hs : List (Handler σ L)) : (leafGroupsOfHandlers hs).length = (leavesOfHandlers hs).length := by
  match hs with
  | [] => rfl
  | p :: ps => simp only [leafGroupsOfHandlers, leavesOfHandlers, List.length_append, p.leafGroups_length, handlers_leafGroups_length ps]
end

/-- Every leaf is shown in its group. -/
def ShownIn (leaves : List (Placed σ L)) (groups : List (List String)) (ex : List (Exhibit (Snapshooter σ L))) : Prop :=
  ∀ x g, (x, g) ∈ leaves.zip groups → ∀ thing, x.2.thing = some thing → ∃ around, ⟨g, around, thing⟩ ∈ ex

theorem ShownIn.append {l₁ l₂ : List (Placed σ L)} {g₁ g₂ : List (List String)} {ex : List (Exhibit (Snapshooter σ L))}
    (hl : g₁.length = l₁.length) (h₁ : ShownIn l₁ g₁ ex) (h₂ : ShownIn l₂ g₂ ex) : ShownIn (l₁ ++ l₂) (g₁ ++ g₂) ex := by
  intro x g h
  rw [List.zip_append hl.symm] at h
  rcases List.mem_append.mp h with h | h
  · exact h₁ x g h
  · exact h₂ x g h

theorem ShownIn.mono {l : List (Placed σ L)} {g : List (List String)} {ex ex' : List (Exhibit (Snapshooter σ L))}
    (h : ShownIn l g ex) (hs : ∀ x ∈ ex, x ∈ ex') : ShownIn l g ex' := by
  intro x gr hx thing ht
  obtain ⟨around, h⟩ := h x gr hx thing ht
  exact ⟨around, hs _ h⟩

theorem ShownIn.inside {l l' : List (Placed σ L)} {g : List (List String)} {ex : List (Exhibit (Snapshooter σ L))}
    (h : ShownIn l g ex) (name : Option String) (act : Option Activity) (hl : l'.map (·.2) = l.map (·.2)) :
    ShownIn l' (g.map (name.toList ++ ·)) (ex.map (Exhibit.inside name act)) := by
  intro x gr hx thing ht
  obtain ⟨i, hi⟩ := List.mem_iff_getElem?.mp hx
  rw [List.getElem?_zip_eq_some] at hi
  obtain ⟨h1, h2⟩ := hi
  have h3 : (l.map (·.2))[i]? = some x.2 := by rw [← hl, List.getElem?_map, h1]; rfl
  rw [List.getElem?_map] at h3 h2
  cases hy : l[i]? with
  | none => rw [hy] at h3; cases h3
  | some y =>
    cases hz : g[i]? with
    | none => rw [hz] at h2; cases h2
    | some z =>
      rw [hy] at h3; rw [hz] at h2
      simp only [Option.map_some, Option.some.injEq] at h3 h2
      obtain ⟨around, hm⟩ := h y z (List.mem_iff_getElem?.mpr ⟨i, List.getElem?_zip_eq_some.mpr ⟨hy, hz⟩⟩) thing (by rw [h3]; exact ht)
      refine ⟨act.toList ++ around, List.mem_map.mpr ⟨_, hm, ?_⟩⟩
      simp only [Exhibit.inside, h2]

theorem PanelHead.shownIn (h : PanelHead L) : ShownIn (h.leaves (σ := σ)) h.leafGroups h.exhibits := by
  unfold PanelHead.leaves PanelHead.leafGroups PanelHead.exhibits
  have key : ∀ {A : Type} (a : Option A) (leaf : A → Leaf σ L) (thing : A → Snapshooter σ L),
      (∀ a, (leaf a).thing = some (thing a)) →
      ShownIn (a.map fun a => (([] : List (LabelFilter L)), leaf a)).toList (a.map fun _ => []).toList
        (a.map fun a => (⟨[], [], thing a⟩ : Exhibit (Snapshooter σ L))).toList := by
    intro A a leaf thing ht x g hx t' ht'
    cases a with
    | none => simp at hx
    | some a =>
      simp only [Option.map_some, Option.toList_some, List.zip_cons_cons, List.zip_nil_right, List.mem_singleton, Prod.mk.injEq] at hx
      obtain ⟨rfl, rfl⟩ := hx
      rw [ht] at ht'
      cases ht'
      exact ⟨[], by simp⟩
  have len : ∀ {A : Type} (a : Option A) (leaf : A → Leaf σ L),
      (a.map fun _ => ([] : List String)).toList.length = (a.map fun a => (([] : List (LabelFilter L)), leaf a)).toList.length := by
    intro A a leaf; cases a <;> rfl
  refine .append ?_ (.append ?_ (.append (len _ _) ?_ ?_) ?_) ?_
  · simp only [List.length_append]; rw [len, len, len]
  · simp only [List.length_append]; rw [len, len]
  · exact (key _ _ _ fun _ => rfl).mono fun x hx => by simp only [List.mem_append]; exact .inl (.inl (.inl hx))
  · exact (key _ _ _ fun _ => rfl).mono fun x hx => by simp only [List.mem_append]; exact .inl (.inl (.inr hx))
  · exact (key _ _ _ fun _ => rfl).mono fun x hx => by simp only [List.mem_append]; exact .inl (.inr hx)
  · exact (key _ _ _ fun _ => rfl).mono fun x hx => by simp only [List.mem_append]; exact .inr hx

mutual
theorem Panel.shownIn (p : Panel σ L) : ShownIn p.leaves p.leafGroups p.exhibits := by
  match p with
  | .mk h ps hs ss =>
    have len : (h.leafGroups).length = (h.leaves (σ := σ)).length := by
      simp only [PanelHead.leafGroups, PanelHead.leaves, List.length_append]
      cases h.counter <;> cases h.gauge <;> cases h.meter <;> cases h.histogram <;> rfl
    rw [Panel.leaves, Panel.leafGroups, Panel.exhibits]
    refine ShownIn.inside (l := h.leaves ++ leavesOfPanels ps ++ leavesOfHandlers hs) ?_ _ _ (by simp only [behind, List.map_map]; rfl)
    refine .append (by simp only [List.length_append, len, panels_leafGroups_length]) (.append len ?_ ?_) ?_
    · exact h.shownIn.mono fun x hx => by simp only [List.mem_append]; exact .inl (.inl (.inl hx))
    · exact (panels_shownIn ps).mono fun x hx => by simp only [List.mem_append]; exact .inl (.inl (.inr hx))
    · exact (handlers_shownIn hs).mono fun x hx => by simp only [List.mem_append]; exact .inr hx

theorem panels_shownIn (ps : List (Panel σ L)) : ShownIn (leavesOfPanels ps) (leafGroupsOfPanels ps) (exhibitsOfPanels ps) := by
  match ps with
  | [] => intro x g h; simp [leavesOfPanels] at h
  | p :: ps =>
    rw [leavesOfPanels, leafGroupsOfPanels, exhibitsOfPanels]
    exact .append p.leafGroups_length (p.shownIn.mono fun x hx => List.mem_append_left _ hx)
      ((panels_shownIn ps).mono fun x hx => List.mem_append_right _ hx)

theorem Handler.shownIn (x : Handler σ L) : ShownIn x.leaves x.leafGroups x.exhibits := by
  match x with
  | .instrument a =>
    intro x g h t ht
    simp only [Handler.leaves, Handler.leafGroups, List.zip_cons_cons, List.zip_nil_right, List.mem_singleton, Prod.mk.injEq] at h
    obtain ⟨rfl, rfl⟩ := h
    cases ht
    exact ⟨[], by simp [Handler.exhibits]⟩
  | .gauge a =>
    intro x g h t ht
    simp only [Handler.leaves, Handler.leafGroups, List.zip_cons_cons, List.zip_nil_right, List.mem_singleton, Prod.mk.injEq] at h
    obtain ⟨rfl, rfl⟩ := h
    cases ht
    exact ⟨[], by simp [Handler.exhibits]⟩
  | .custom a =>
    intro x g h t ht
    simp only [Handler.leaves, Handler.leafGroups, List.zip_cons_cons, List.zip_nil_right, List.mem_singleton, Prod.mk.injEq] at h
    obtain ⟨rfl, rfl⟩ := h
    cases ht
    exact ⟨[], by simp [Handler.exhibits]⟩
  | .panel p =>
    rw [Handler.leaves, Handler.leafGroups, Handler.exhibits]
    exact p.shownIn
  | .cockpit h ps hs ss =>
    rw [Handler.leaves, Handler.leafGroups, Handler.exhibits]
    refine ShownIn.inside (l := ([], .lastActivity h.activity.lastActivity) :: (leavesOfHandlers hs ++ leavesOfPanels ps)) ?_ _ _ rfl
    refine .append (l₁ := [([], .lastActivity h.activity.lastActivity)]) (g₁ := [[]]) rfl ?_
      (.append (handlers_leafGroups_length hs) ?_ ?_)
    · intro x g hx t ht
      simp only [List.zip_cons_cons, List.zip_nil_right, List.mem_singleton, Prod.mk.injEq] at hx
      obtain ⟨rfl, rfl⟩ := hx
      cases ht
    · exact (handlers_shownIn hs).mono fun x hx => by simp only [List.mem_append]; exact .inl (.inr hx)
    · exact (panels_shownIn ps).mono fun x hx => by simp only [List.mem_append]; exact .inl (.inl hx)

theorem handlers_shownIn (hs : List (Handler σ L)) :
    ShownIn (leavesOfHandlers hs) (leafGroupsOfHandlers hs) (exhibitsOfHandlers hs) := by
  match hs with
  | [] => intro x g h; simp [leavesOfHandlers] at h
  | p :: ps =>
    rw [leavesOfHandlers, leafGroupsOfHandlers, exhibitsOfHandlers]
    exact .append p.leafGroups_length (p.shownIn.mono fun x hx => List.mem_append_left _ hx)
      ((handlers_shownIn ps).mono fun x hx => List.mem_append_right _ hx)
end

theorem ShownIn.get {l : List (Placed σ L)} {g : List (List String)} {ex : List (Exhibit (Snapshooter σ L))} (h : ShownIn l g ex)
    {j : Nat} {x : Placed σ L} {gr : List String} (hx : l[j]? = some x) (hg : g[j]? = some gr) {thing : Snapshooter σ L}
    (ht : x.2.thing = some thing) : ∃ around, ⟨gr, around, thing⟩ ∈ ex :=
  h x gr (List.mem_iff_getElem?.mpr ⟨j, List.getElem?_zip_eq_some.mpr ⟨hx, hg⟩⟩) thing ht

theorem mem_exhibitsOfHandlers {hs : List (Handler σ L)} {x : Handler σ L} (hx : x ∈ hs) {y : Exhibit (Snapshooter σ L)}
    (hy : y ∈ x.exhibits) : y ∈ exhibitsOfHandlers hs := by
  induction hs with
  | nil => cases hx
  | cons h hs ih =>
    rw [exhibitsOfHandlers]
    rcases List.mem_cons.mp hx with rfl | hx
    · exact List.mem_append_left _ hy
    · exact List.mem_append_right _ (ih hx)

theorem mem_exhibitsOfPanels {hs : List (Panel σ L)} {x : Panel σ L} (hx : x ∈ hs) {y : Exhibit (Snapshooter σ L)}
    (hy : y ∈ x.exhibits) : y ∈ exhibitsOfPanels hs := by
  induction hs with
  | nil => cases hx
  | cons h hs ih =>
    rw [exhibitsOfPanels]
    rcases List.mem_cons.mp hx with rfl | hx
    · exact List.mem_append_left _ hy
    · exact List.mem_append_right _ (ih hx)

theorem ProcessorState.cockpitAt_mem {s : ProcessorState σ L} {id : CockpitId} {c : Cockpit σ L} (h : s.cockpitAt id = some c) :
    c ∈ s.cockpits ∧ c.name = id.name := by
  cases id with
  | named n =>
    have := List.find?_some h
    exact ⟨List.mem_of_find?_eq_some h, of_decide_eq_true this⟩
  | unnamed i =>
    have := List.mem_of_getElem? h
    simp only [ProcessorState.unnamed, List.mem_filter] at this
    exact ⟨this.1, of_decide_eq_true this.2⟩

theorem Cockpit.panelAt_mem {c : Cockpit σ L} {id : PanelId} {p : Panel σ L} (h : c.panelAt id = some p) : p ∈ c.panels := by
  cases id with
  | named n => exact List.mem_of_find?_eq_some h
  | unnamed i => exact (List.mem_filter.mp (List.mem_of_getElem? h)).1

/-- What is at a place is shown in the group of the place. -/
theorem ProcessorState.shownAt {s : ProcessorState σ L} {place : Place} {x : Placed σ L} {g : List String}
    (hx : s.leafAt place = some x) (hg : s.groupsAt place = some g) {thing : Snapshooter σ L} (ht : x.2.thing = some thing) :
    ∃ around, ⟨g, around, thing⟩ ∈ s.exhibits := by
  have inProcessor : ∀ {gr around}, (⟨gr, around, thing⟩ : Exhibit (Snapshooter σ L)) ∈
      (s.cockpits.map Cockpit.exhibits).flatten ++ exhibitsOfHandlers s.handlers ++ exhibitsOfSnapshooters s.snapshooters →
      ∃ around, ⟨s.name.toList ++ gr, around, thing⟩ ∈ s.exhibits :=
    fun h => ⟨_, List.mem_map.mpr ⟨_, h, rfl⟩⟩
  cases place with
  | handler i j =>
    simp only [ProcessorState.leafAt, ProcessorState.groupsAt, Option.bind_eq_some_iff, Option.map_eq_some_iff] at hx hg
    obtain ⟨y, hy, hj⟩ := hx
    obtain ⟨gr, ⟨y', hy', hj'⟩, rfl⟩ := hg
    rw [hy] at hy'; cases hy'
    obtain ⟨around, h⟩ := y.shownIn.get hj hj' ht
    exact inProcessor (List.mem_append_left _ (List.mem_append_right _ (mem_exhibitsOfHandlers (List.mem_of_getElem? hy) h)))
  | cockpitHandler id i j =>
    simp only [ProcessorState.leafAt, ProcessorState.groupsAt, Option.bind_eq_some_iff, Option.map_eq_some_iff] at hx hg
    obtain ⟨c, hc, y, hy, hj⟩ := hx
    obtain ⟨c', hc', gr, ⟨y', hy', hj'⟩, rfl⟩ := hg
    rw [hc] at hc'; cases hc'
    rw [hy] at hy'; cases hy'
    obtain ⟨around, h⟩ := y.shownIn.get hj hj' ht
    have h2 := mem_exhibitsOfHandlers (List.mem_of_getElem? hy) h
    rw [List.append_assoc]
    refine inProcessor (around := c.head.activity :: around) (List.mem_append_left _ (List.mem_append_left _ (List.mem_flatten.mpr
      ⟨_, List.mem_map.mpr ⟨c, (s.cockpitAt_mem hc).1, rfl⟩, ?_⟩)))
    simp only [Cockpit.exhibits, Cockpit.toHandler, Handler.exhibits]
    exact List.mem_map.mpr ⟨_, List.mem_append_left _ (List.mem_append_right _ h2), rfl⟩
  | cockpitPanel id pid j =>
    simp only [ProcessorState.leafAt, ProcessorState.groupsAt, Option.bind_eq_some_iff, Option.map_eq_some_iff] at hx hg
    obtain ⟨c, hc, y, hy, hj⟩ := hx
    obtain ⟨c', hc', gr, ⟨y', hy', hj'⟩, rfl⟩ := hg
    rw [hc] at hc'; cases hc'
    rw [hy] at hy'; cases hy'
    obtain ⟨around, h⟩ := y.shownIn.get hj hj' ht
    have h2 := mem_exhibitsOfPanels (Cockpit.panelAt_mem hy) h
    rw [List.append_assoc]
    refine inProcessor (around := c.head.activity :: around) (List.mem_append_left _ (List.mem_append_left _ (List.mem_flatten.mpr
      ⟨_, List.mem_map.mpr ⟨c, (s.cockpitAt_mem hc).1, rfl⟩, ?_⟩)))
    simp only [Cockpit.exhibits, Cockpit.toHandler, Handler.exhibits]
    exact List.mem_map.mpr ⟨_, List.mem_append_left _ (List.mem_append_left _ h2), rfl⟩

/-! ## They stay the same -/

variable [DecidableEq L] [Custom σ L]

omit [DecidableEq L] [Custom σ L] in
theorem handleSlot_const {A B : Type} {f : A → M (A × Nat)} {a a' : Option A} {n : Nat} {e : Env} {k k' : Nat} (b : B)
    (h : handleSlot f a e k = some ((a', n), k')) : (a'.map fun _ => b) = a.map fun _ => b :=
  handleSlot_map (g := fun _ => b) (fun _ _ _ _ _ _ => rfl) h

omit [DecidableEq L] [Custom σ L] in
theorem putSlot_const {A B : Type} {f : A → Snapshot → M (A × Snapshot)} {a a' : Option A} {s s' : Snapshot} {e : Env} {k k' : Nat}
    (b : B) (h : putSlot f a s e k = some ((a', s'), k')) : (a'.map fun _ => b) = a.map fun _ => b := by
  cases a with
  | none => simp [putSlot] at h; rw [← h.1.1]
  | some a =>
    simp only [putSlot, M.bind_eq_some, M.run_pure, Option.some.injEq, Prod.mk.injEq] at h
    obtain ⟨_, _, _, ⟨rfl, _⟩, _⟩ := h
    rfl

mutual
theorem Panel.handle_leafGroups {o : Observation L} {p p' : Panel σ L} {n : Nat} {e : Env} {k k' : Nat}
    (h : p.handle o e k = some ((p', n), k')) : p'.leafGroups = p.leafGroups := by
  match p with
  | .mk hd ps hs ss =>
    simp only [Panel.handle] at h
    by_cases hf : hd.labelFilter.accepts o.label = true
    · rw [if_pos hf] at h
      simp only [M.bind_eq_some, M.run_pure, Option.some.injEq, Prod.mk.injEq] at h
      obtain ⟨⟨hd', _⟩, _, h1, ⟨ps', _⟩, _, h2, ⟨hs', _⟩, _, h3, ⟨rfl, _⟩, _⟩ := h
      simp only [PanelHead.handle, M.bind_eq_some, M.run_pure, Option.some.injEq, Prod.mk.injEq] at h1
      obtain ⟨⟨c', _⟩, _, hc, ⟨g', _⟩, _, hg, ⟨m', _⟩, _, hm, ⟨hi', _⟩, _, hhi, ⟨rfl, _⟩, _⟩ := h1
      simp only [Panel.leafGroups, PanelHead.leafGroups, panels_handle_leafGroups h2, handlers_handle_leafGroups h3]
      rw [handleSlot_const _ hc, handleSlot_const _ hg, handleSlot_const _ hm, handleSlot_const _ hhi]
    · rw [if_neg hf] at h; simp at h; rw [h.1.1]

theorem panels_handle_leafGroups {o : Observation L} {ps ps' : List (Panel σ L)} {n : Nat} {e : Env} {k k' : Nat}
    (h : handlePanels o ps e k = some ((ps', n), k')) : leafGroupsOfPanels ps' = leafGroupsOfPanels ps := by
  match ps with
  | [] => simp [handlePanels] at h; rw [h.1.1]
  | p :: ps =>
    simp only [handlePanels, M.bind_eq_some, M.run_pure, Option.some.injEq, Prod.mk.injEq] at h
    obtain ⟨⟨p', _⟩, _, h1, ⟨ps', _⟩, _, h2, ⟨rfl, _⟩, _⟩ := h
    simp only [leafGroupsOfPanels, Panel.handle_leafGroups h1, panels_handle_leafGroups h2]

theorem Handler.handle_leafGroups {o : Observation L} {x x' : Handler σ L} {n : Nat} {e : Env} {k k' : Nat}
    (h : x.handle o e k = some ((x', n), k')) : x'.leafGroups = x.leafGroups := by
  match x with
  | .instrument a =>
    simp only [Handler.handle, M.bind_eq_some, M.run_pure, Option.some.injEq, Prod.mk.injEq] at h
    obtain ⟨⟨a', _⟩, _, h1, ⟨rfl, _⟩, _⟩ := h
    rfl
  | .gauge a =>
    simp only [Handler.handle, M.bind_eq_some, M.run_pure, Option.some.injEq, Prod.mk.injEq] at h
    obtain ⟨⟨a', _⟩, _, h1, ⟨rfl, _⟩, _⟩ := h
    rfl
  | .panel p =>
    simp only [Handler.handle, M.bind_eq_some, M.run_pure, Option.some.injEq, Prod.mk.injEq] at h
    obtain ⟨⟨a', _⟩, _, h1, ⟨rfl, _⟩, _⟩ := h
    simp only [Handler.leafGroups, Panel.handle_leafGroups h1]
  | .cockpit hd ps hs ss =>
    simp only [Handler.handle, M.bind_eq_some, M.run_pure, Option.some.injEq, Prod.mk.injEq] at h
    obtain ⟨_, _, _, ⟨hs', _⟩, _, h1, ⟨ps', _⟩, _, h2, ⟨rfl, _⟩, _⟩ := h
    simp only [Handler.leafGroups, panels_handle_leafGroups h2, handlers_handle_leafGroups h1]
  | .custom s =>
    simp only [Handler.handle, M.bind_eq_some, M.run_pure, Option.some.injEq, Prod.mk.injEq] at h
    obtain ⟨⟨a', _⟩, _, h1, ⟨rfl, _⟩, _⟩ := h
    rfl

theorem handlers_handle_leafGroups {o : Observation L} {hs hs' : List (Handler σ L)} {n : Nat} {e : Env} {k k' : Nat}
    (h : handleHandlers o hs e k = some ((hs', n), k')) : leafGroupsOfHandlers hs' = leafGroupsOfHandlers hs := by
  match hs with
  | [] => simp [handleHandlers] at h; rw [h.1.1]
  | p :: ps =>
    simp only [handleHandlers, M.bind_eq_some, M.run_pure, Option.some.injEq, Prod.mk.injEq] at h
    obtain ⟨⟨p', _⟩, _, h1, ⟨ps', _⟩, _, h2, ⟨rfl, _⟩, _⟩ := h
    simp only [leafGroupsOfHandlers, Handler.handle_leafGroups h1, handlers_handle_leafGroups h2]
end

omit [DecidableEq L] in
mutual
theorem Panel.put_leafGroups {d : Bool} {p p' : Panel σ L} {s s' : Snapshot} {e : Env} {k k' : Nat}
    (h : p.putSnapshot d s e k = some ((p', s'), k')) : p'.leafGroups = p.leafGroups := by
  match p with
  | .mk hd ps hs ss =>
    rw [Panel.putSnapshot] at h
    simp only [M.bind_eq_some] at h
    obtain ⟨⟨g, lv⟩, k₀, h0, h⟩ := h
    by_cases hg : g = true
    · simp only [hg, if_true, M.bind_eq_some, M.run_pure, Option.some.injEq, Prod.mk.injEq] at h
      obtain ⟨⟨hd', s₁⟩, k₁, h1, ⟨b, s₂⟩, k₂, h2, ⟨c, s₃⟩, k₃, h3, ⟨f, s₄⟩, k₄, h4, ⟨rfl, rfl⟩, rfl⟩ := h
      simp only [PanelHead.putSlots, M.bind_eq_some, M.run_pure, Option.some.injEq, Prod.mk.injEq] at h1
      obtain ⟨⟨c', _⟩, _, hc, ⟨g', _⟩, _, hg, ⟨m', _⟩, _, hm, ⟨hi', _⟩, _, hhi, ⟨rfl, _⟩, _⟩ := h1
      simp only [Panel.leafGroups, PanelHead.leafGroups, panels_put_leafGroups h2, handlers_put_leafGroups h4]
      rw [putSlot_const _ hc, putSlot_const _ hg, putSlot_const _ hm, putSlot_const _ hhi]
    · simp only [hg] at h
      simp at h
      obtain ⟨⟨rfl, rfl⟩, rfl⟩ := h
      rfl

theorem panels_put_leafGroups {d : Bool} {ps ps' : List (Panel σ L)} {s s' : Snapshot} {e : Env} {k k' : Nat}
    (h : putPanels d ps s e k = some ((ps', s'), k')) : leafGroupsOfPanels ps' = leafGroupsOfPanels ps := by
  match ps with
  | [] => simp [putPanels] at h; rw [h.1.1]
  | p :: ps =>
    simp only [putPanels, M.bind_eq_some, M.run_pure, Option.some.injEq, Prod.mk.injEq] at h
    obtain ⟨⟨p', _⟩, _, h1, ⟨ps', _⟩, _, h2, ⟨rfl, _⟩, _⟩ := h
    simp only [leafGroupsOfPanels, Panel.put_leafGroups h1, panels_put_leafGroups h2]

theorem Handler.put_leafGroups {d : Bool} {x x' : Handler σ L} {s s' : Snapshot} {e : Env} {k k' : Nat}
    (h : x.putSnapshot d s e k = some ((x', s'), k')) : x'.leafGroups = x.leafGroups := by
  match x with
  | .instrument a =>
    simp only [Handler.putSnapshot, M.bind_eq_some, M.run_pure, Option.some.injEq, Prod.mk.injEq] at h
    obtain ⟨⟨a', _⟩, _, h1, ⟨rfl, _⟩, _⟩ := h
    rfl
  | .gauge a =>
    simp only [Handler.putSnapshot, M.bind_eq_some, M.run_pure, Option.some.injEq, Prod.mk.injEq] at h
    obtain ⟨⟨a', _⟩, _, h1, ⟨rfl, _⟩, _⟩ := h
    rfl
  | .panel p =>
    simp only [Handler.putSnapshot, M.bind_eq_some, M.run_pure, Option.some.injEq, Prod.mk.injEq] at h
    obtain ⟨⟨a', _⟩, _, h1, ⟨rfl, _⟩, _⟩ := h
    simp only [Handler.leafGroups, Panel.put_leafGroups h1]
  | .cockpit hd ps hs ss =>
    rw [Handler.putSnapshot] at h
    simp only [M.bind_eq_some] at h
    obtain ⟨⟨g, lv⟩, k₀, h0, h⟩ := h
    by_cases hg : g = true
    · simp only [hg, if_true, M.bind_eq_some, M.run_pure, Option.some.injEq, Prod.mk.injEq] at h
      obtain ⟨⟨b, s₂⟩, k₂, h2, ⟨f, s₄⟩, k₄, h4, ⟨x, s₃⟩, k₃, h3, ⟨rfl, rfl⟩, rfl⟩ := h
      simp only [Handler.leafGroups, panels_put_leafGroups h2, handlers_put_leafGroups h4]
    · simp only [hg] at h
      simp at h
      obtain ⟨⟨rfl, rfl⟩, rfl⟩ := h
      rfl
  | .custom s =>
    simp only [Handler.putSnapshot, M.bind_eq_some, M.run_pure, Option.some.injEq, Prod.mk.injEq] at h
    obtain ⟨⟨a', _⟩, _, h1, ⟨rfl, _⟩, _⟩ := h
    rfl

theorem handlers_put_leafGroups {d : Bool} {ps ps' : List (Handler σ L)} {s s' : Snapshot} {e : Env} {k k' : Nat}
    (h : putHandlers d ps s e k = some ((ps', s'), k')) : leafGroupsOfHandlers ps' = leafGroupsOfHandlers ps := by
  match ps with
  | [] => simp [putHandlers] at h; rw [h.1.1]
  | p :: ps =>
    simp only [putHandlers, M.bind_eq_some, M.run_pure, Option.some.injEq, Prod.mk.injEq] at h
    obtain ⟨⟨p', _⟩, _, h1, ⟨ps', _⟩, _, h2, ⟨rfl, _⟩, _⟩ := h
    simp only [leafGroupsOfHandlers, Handler.put_leafGroups h1, handlers_put_leafGroups h2]
end

theorem Panel.history_leafGroups {e : Env} {k k' : Nat} {p p' : Panel σ L} {log : List (Event (Observation L))}
    (h : History e k p log k' p') : p'.leafGroups = p.leafGroups := by
  refine History.preserves (fun x : Panel σ L => x.leafGroups = p.leafGroups) ?_ h rfl
  intro c op e k c' out k' hc hs
  cases op with
  | input o =>
    obtain ⟨n, _, hs⟩ := step_input_eq_some.mp hs
    exact (Panel.handle_leafGroups hs).trans hc
  | snapshot s d =>
    obtain ⟨n, _, hs⟩ := step_snapshot_eq_some.mp hs
    exact (Panel.put_leafGroups hs).trans hc

theorem Handler.history_leafGroups {e : Env} {k k' : Nat} {p p' : Handler σ L} {log : List (Event (Observation L))}
    (h : History e k p log k' p') : p'.leafGroups = p.leafGroups := by
  refine History.preserves (fun x : Handler σ L => x.leafGroups = p.leafGroups) ?_ h rfl
  intro c op e k c' out k' hc hs
  cases op with
  | input o =>
    obtain ⟨n, _, hs⟩ := step_input_eq_some.mp hs
    exact (Handler.handle_leafGroups hs).trans hc
  | snapshot s d =>
    obtain ⟨n, _, hs⟩ := step_snapshot_eq_some.mp hs
    exact (Handler.put_leafGroups hs).trans hc

/-- The group of a place stays the same, if the name of the processor does. -/
theorem Trail.groupsAt (hc : CustomForward σ L) {e : Env} {k k' : Nat} {s s' : ProcessorState σ L}
    {ms : List (Message σ L × Verdict)} (h : Trail e k s ms k' s') (hname : s'.name = s.name) {place : Place} {g : List String}
    (hx : s.groupsAt place = some g) (hP : ∀ m ∈ ms, ¬ place.RemovedBy m.1) : s'.groupsAt place = some g := by
  cases place with
  | handler i j =>
    simp only [ProcessorState.groupsAt, Option.bind_eq_some_iff, Option.map_eq_some_iff] at hx ⊢
    obtain ⟨gr, ⟨x, hx, hj⟩, rfl⟩ := hx
    obtain ⟨l₁, x', h1, h2, h3⟩ := h.part hc (handler_part hc e i) (fun _ _ => trivial) hx
    exact ⟨gr, ⟨x', h2, by rw [Handler.history_leafGroups h1]; exact hj⟩, by rw [hname]⟩
  | cockpitHandler id i j =>
    simp only [ProcessorState.groupsAt, Option.bind_eq_some_iff, Option.map_eq_some_iff] at hx ⊢
    obtain ⟨c, hx, gr, ⟨x, hi, hj⟩, rfl⟩ := hx
    obtain ⟨l₁, c', h1, h2, h3⟩ := h.cockpit hc hx (fun m hm n heq hid => hP m hm (by
      simp [Place.RemovedBy, heq, hid]))
    obtain ⟨l₂, x', h4, h5, h6⟩ := managed_handler hc h1 hi
    exact ⟨c', h2, gr, ⟨x', h5, by rw [Handler.history_leafGroups h4]; exact hj⟩, by
      rw [hname, (s'.cockpitAt_mem h2).2, (s.cockpitAt_mem hx).2]⟩
  | cockpitPanel id pid j =>
    simp only [ProcessorState.groupsAt, Option.bind_eq_some_iff, Option.map_eq_some_iff] at hx ⊢
    obtain ⟨c, hx, gr, ⟨x, hi, hj⟩, rfl⟩ := hx
    obtain ⟨l₁, c', h1, h2, h3⟩ := h.cockpit hc hx (fun m hm n heq hid => hP m hm (by
      simp [Place.RemovedBy, heq, hid]))
    obtain ⟨l₂, x', h4, h5, h6⟩ := managed_panel hc h1 hi (by
      intro a ha m hm hpid
      rw [h3] at ha
      obtain ⟨⟨msg, v⟩, hmem, hfor⟩ := List.mem_filterMap.mp ha
      refine hP _ hmem ?_
      subst hm
      cases msg with
      | removePanelFromCockpit n q =>
        simp only [forCockpit] at hfor
        split at hfor
        · rename_i hn
          simp at hfor; subst hfor
          cases id with
          | named n' => simp [CockpitId.name] at hn; simp [Place.RemovedBy, hn, hpid]
          | unnamed i => simp [CockpitId.name] at hn
        · cases hfor
      | observation o => cases v <;> simp [forCockpit] at hfor
      | addPanelToCockpit n q => simp only [forCockpit] at hfor; split at hfor <;> simp at hfor
      | _ => simp [forCockpit] at hfor)
    exact ⟨c', h2, gr, ⟨x', h5, by rw [Panel.history_leafGroups h4]; exact hj⟩, by
      rw [hname, (s'.cockpitAt_mem h2).2, (s.cockpitAt_mem hx).2]⟩

omit [Custom σ L] in
theorem Applied.name [Custom σ L] {e : Env} {keeps : Observation L → Prop} {k k' : Nat} {s s' : ProcessorState σ L} {m : Message σ L}
    {v : Verdict} (h : Applied e keeps k s m v k' s') : s'.name = s.name := by
  cases h with
  | processed _ _ _ => rfl
  | dropped _ => rfl
  | config _ =>
    cases m with
    | addCockpit c => simp only [ProcessorState.configured]; split <;> rfl
    | addPanelToCockpit n p => simp only [ProcessorState.configured]; split <;> rfl
    | removePanelFromCockpit n p => simp only [ProcessorState.configured]; split <;> rfl
    | _ => rfl

theorem Applies.name {e : Env} {keeps : Observation L → Prop} {k k' : Nat} {s s' : ProcessorState σ L}
    {ms : List (Message σ L × Verdict)} (h : Applies e keeps k s ms k' s') : s'.name = s.name := by
  induction h with
  | nil => rfl
  | cons h1 _ ih => rw [ih, h1.name]

theorem ProcessorState.put_name {s s' : ProcessorState σ L} {into into' : Snapshot} {d : Bool} {e : Env} {k k' : Nat}
    (h : s.putSnapshot into d e k = some ((s', into'), k')) : s'.name = s.name := by
  unfold ProcessorState.putSnapshot at h
  simp only [M.bind_eq_some] at h
  obtain ⟨⟨g, lv⟩, k₀, h0, h⟩ := h
  by_cases hg : g = true
  · simp only [hg, if_true, M.bind_eq_some, M.run_pure, Option.some.injEq, Prod.mk.injEq] at h
    obtain ⟨⟨b, s₂⟩, k₂, h2, ⟨f, s₄⟩, k₄, h4, ⟨x, s₃⟩, k₃, h3, ⟨rfl, rfl⟩, rfl⟩ := h
    rfl
  · simp only [hg] at h
    simp at h
    obtain ⟨⟨rfl, rfl⟩, rfl⟩ := h
    rfl

/-- Only the owner changes the name. -/
theorem Story.name {e : Env} {k k' : Nat} {s s' : ProcessorState σ L} {log : List (Called σ L)}
    {consumed : List (List (Message σ L × Verdict))} (h : Story e k s log consumed k' s')
    (hset : ∀ c ∈ log, ∀ n, c.call ≠ .setName n) : s'.name = s.name := by
  induction h with
  | nil => rfl
  | @run k k₁ k₂ k₃ k₄ k' s s₁ s₂ s' max strategy out ms log consumed _ _ _ _ happ _ hs₂ _ ih =>
    rw [ih fun c hc => hset c (List.mem_cons_of_mem _ hc), hs₂]
    split
    · exact happ.name
    · exact happ.name
  | snapshot _ hp _ ih => rw [ih fun c hc => hset c (List.mem_cons_of_mem _ hc), ProcessorState.put_name hp]
  | @set k k₁ k' s s' c log consumed _ _ _ _ ih =>
    rw [ih fun c hc => hset c (List.mem_cons_of_mem _ hc)]
    have := hset _ (List.mem_cons_self ..)
    cases c with
    | setName n => exact absurd rfl (this n)
    | addCockpit c => 
      simp only [ProcessorState.set, ProcessorState.addCockpit]
      split
      · split <;> rfl
      · rfl
    | _ => rfl

end Metrix
