import Verif.Spec.Timeless
import Verif.Proof.Happening
import Verif.Proof.Layout

/-! No instrument looks at timestamps. -/

namespace Metrix
variable {σ L : Type}

theorem Observation.label_stamped (o : Observation L) (t : Int) : (o.stamped t).label = o.label := by cases o <;> rfl
theorem Observation.toUpdate_stamped (o : Observation L) (t : Int) : (o.stamped t).toUpdate = o.toUpdate.stamped t := by cases o <;> rfl

theorem Counter.update_stamped (i : Counter) (u : Update) (t : Int) : i.update (u.stamped t) = i.update u := by cases u <;> rfl
theorem Gauge.update_stamped (i : Gauge) (u : Update) (t : Int) : i.update (u.stamped t) = i.update u := by cases u <;> rfl
theorem Meter.update_stamped (i : Meter) (u : Update) (t : Int) : i.update (u.stamped t) = i.update u := by cases u <;> rfl
theorem ValueMeter.update_stamped (i : ValueMeter) (u : Update) (t : Int) : i.update (u.stamped t) = i.update u := by
  cases u with
  | withValue v _ => cases v <;> rfl
  | _ => rfl
theorem Histogram.update_stamped (i : Histogram) (u : Update) (t : Int) : i.update (u.stamped t) = i.update u := by
  cases u with
  | withValue v _ => cases v <;> rfl
  | _ => rfl
theorem Flag.update_stamped (i : Flag) (u : Update) (t : Int) : i.update (u.stamped t) = i.update u := by
  cases u with
  | withValue v _ => cases v <;> rfl
  | _ => rfl
theorem StaircaseTimer.update_stamped (i : StaircaseTimer) (u : Update) (t : Int) : i.update (u.stamped t) = i.update u := by
  cases u <;> rfl
theorem OccurrenceIndicator.update_stamped (i : OccurrenceIndicator) (u : Update) (t : Int) : i.update (u.stamped t) = i.update u := by
  cases u <;> rfl
theorem NonOccurrenceIndicator.update_stamped (i : NonOccurrenceIndicator) (u : Update) (t : Int) :
    i.update (u.stamped t) = i.update u := by cases u <;> rfl
theorem DataDisplay.update_stamped (i : DataDisplay) (u : Update) (t : Int) : i.update (u.stamped t) = i.update u := by cases u <;> rfl
theorem LastOccurrenceTracker.update_stamped (i : LastOccurrenceTracker) (u : Update) (t : Int) :
    i.update (u.stamped t) = i.update u := by cases u <;> rfl

theorem Instrument.update_stamped [Custom σ L] (hc : CustomTimeless σ L) (i : Instrument σ) (u : Update) (t : Int) :
    i.update L (u.stamped t) = i.update L u := by
  cases i <;> simp only [Instrument.update, IsInstrument.update, Counter.update_stamped, Gauge.update_stamped, Meter.update_stamped,
    ValueMeter.update_stamped, Histogram.update_stamped, Flag.update_stamped, StaircaseTimer.update_stamped,
    OccurrenceIndicator.update_stamped, NonOccurrenceIndicator.update_stamped, DataDisplay.update_stamped,
    LastOccurrenceTracker.update_stamped, hc.update]

variable [DecidableEq L]

theorem InstrumentAdapter.handle_stamped {I : Type} {update : I → Update → M (I × Nat)}
    (hu : ∀ i u t, update i (Update.stamped t u) = update i u) (a : InstrumentAdapter L I) (ha : a.modifyUpdate.Timeless)
    (o : Observation L) (t : Int) : a.handle update (o.stamped t) = a.handle update o := by
  obtain ⟨t', h⟩ := ha o.label o.toUpdate t
  unfold InstrumentAdapter.handle
  rw [o.label_stamped, o.toUpdate_stamped, h, hu]

theorem GaugeAdapter.handle_stamped (a : GaugeAdapter L) (ha : a.modifyUpdate.Timeless) (o : Observation L) (t : Int) :
    a.handle (o.stamped t) = a.handle o := by
  obtain ⟨t', h⟩ := ha o.label o.toUpdate t
  have hg : ∀ u t, a.updateGauge (Update.stamped t u) = a.updateGauge u := by
    intro u t; unfold GaugeAdapter.updateGauge; rw [Gauge.update_stamped]
  unfold GaugeAdapter.handle
  rw [o.label_stamped, o.toUpdate_stamped, h]
  cases a.strategy with
  | filter f => dsimp only; rw [hg]
  | deltasOnly f =>
    dsimp only
    congr 1
    cases a.modifyUpdate.modify o.label o.toUpdate with
    | withValue v s =>
      cases v with
      | changedBy d => exact hg (.withValue (.changedBy d) s) t'
      | _ => rfl
    | _ => rfl
  | incDecOnLabels inc dec =>
    dsimp only
    rw [show a.updateGauge (.withValue (.changedBy 1) (o.stamped t).timestamp) = a.updateGauge (.withValue (.changedBy 1) o.timestamp) from
      hg (.withValue (.changedBy 1) o.timestamp) _,
      show a.updateGauge (.withValue (.changedBy (-1)) (o.stamped t).timestamp) = a.updateGauge (.withValue (.changedBy (-1)) o.timestamp) from
      hg (.withValue (.changedBy (-1)) o.timestamp) _]

theorem PanelHead.handle_stamped (h : PanelHead L) (hh : ∀ m ∈ h.modifiers, m.Timeless) (o : Observation L) (t : Int) :
    h.handle (o.stamped t) = h.handle o := by
  have h1 : handleSlot (·.handle IsInstrument.update (o.stamped t)) h.counter = handleSlot (·.handle IsInstrument.update o) h.counter := by
    cases hs : h.counter with
    | none => rfl
    | some a =>
      simp only [handleSlot]
      rw [a.handle_stamped (update := IsInstrument.update) Counter.update_stamped (hh _ (by simp [PanelHead.modifiers, hs]))]
  have h2 : handleSlot (·.handle (o.stamped t)) h.gauge = handleSlot (·.handle o) h.gauge := by
    cases hs : h.gauge with
    | none => rfl
    | some a =>
      simp only [handleSlot]
      rw [a.handle_stamped (hh _ (by simp [PanelHead.modifiers, hs]))]
  have h3 : handleSlot (·.handle IsInstrument.update (o.stamped t)) h.meter = handleSlot (·.handle IsInstrument.update o) h.meter := by
    cases hs : h.meter with
    | none => rfl
    | some a =>
      simp only [handleSlot]
      rw [a.handle_stamped (update := IsInstrument.update) Meter.update_stamped (hh _ (by simp [PanelHead.modifiers, hs]))]
  have h4 : handleSlot (·.handle IsInstrument.update (o.stamped t)) h.histogram = handleSlot (·.handle IsInstrument.update o) h.histogram := by
    cases hs : h.histogram with
    | none => rfl
    | some a =>
      simp only [handleSlot]
      rw [a.handle_stamped (update := IsInstrument.update) Histogram.update_stamped (hh _ (by simp [PanelHead.modifiers, hs]))]
  unfold PanelHead.handle
  rw [h1, h2, h3, h4]

variable [Custom σ L]

/-- All of them are timeless. -/
abbrev AllTimeless (ms : List (UpdateModifier L)) : Prop := ∀ m ∈ ms, m.Timeless

mutual
theorem Panel.handle_stamped (hc : CustomTimeless σ L) (o : Observation L) (t : Int) : ∀ p : Panel σ L, AllTimeless p.modifiers →
    p.handle (o.stamped t) = p.handle o
  | .mk h ps hs ss, hp => by
    simp only [Panel.modifiers, AllTimeless, List.mem_append] at hp
    unfold Panel.handle
    rw [o.label_stamped, h.handle_stamped (fun m hm => hp m (.inl (.inl hm))),
      handlePanels_stamped hc o t ps (fun m hm => hp m (.inl (.inr hm))), handleHandlers_stamped hc o t hs (fun m hm => hp m (.inr hm))]
theorem handlePanels_stamped (hc : CustomTimeless σ L) (o : Observation L) (t : Int) : ∀ ps : List (Panel σ L),
    AllTimeless (modifiersOfPanels ps) → handlePanels (o.stamped t) ps = handlePanels o ps
  | [], _ => rfl
  | p :: ps, hp => by
    simp only [modifiersOfPanels, AllTimeless, List.mem_append] at hp
    unfold handlePanels
    rw [Panel.handle_stamped hc o t p (fun m hm => hp m (.inl hm)), handlePanels_stamped hc o t ps (fun m hm => hp m (.inr hm))]
theorem Handler.handle_stamped (hc : CustomTimeless σ L) (o : Observation L) (t : Int) : ∀ h : Handler σ L, AllTimeless h.modifiers →
    h.handle (o.stamped t) = h.handle o
  | .instrument a, hp => by
    unfold Handler.handle
    rw [a.handle_stamped (Instrument.update_stamped hc) (hp _ (by simp [Handler.modifiers]))]
  | .gauge a, hp => by
    unfold Handler.handle
    rw [a.handle_stamped (hp _ (by simp [Handler.modifiers]))]
  | .panel p, hp => by
    unfold Handler.handle
    rw [Panel.handle_stamped hc o t p hp]
  | .cockpit h ps hs ss, hp => by
    simp only [Handler.modifiers, AllTimeless, List.mem_append] at hp
    unfold Handler.handle
    rw [handlePanels_stamped hc o t ps (fun m hm => hp m (.inl hm)), handleHandlers_stamped hc o t hs (fun m hm => hp m (.inr hm))]
  | .custom s, _ => by
    unfold Handler.handle
    rw [hc.handle]
theorem handleHandlers_stamped (hc : CustomTimeless σ L) (o : Observation L) (t : Int) : ∀ hs : List (Handler σ L),
    AllTimeless (modifiersOfHandlers hs) → handleHandlers (o.stamped t) hs = handleHandlers o hs
  | [], _ => rfl
  | h :: hs, hp => by
    simp only [modifiersOfHandlers, AllTimeless, List.mem_append] at hp
    unfold handleHandlers
    rw [Handler.handle_stamped hc o t h (fun m hm => hp m (.inl hm)), handleHandlers_stamped hc o t hs (fun m hm => hp m (.inr hm))]
end

theorem Cockpit.handle_stamped (hc : CustomTimeless σ L) (o : Observation L) (t : Int) (c : Cockpit σ L) (h : AllTimeless c.modifiers) :
    c.handle (o.stamped t) = c.handle o := by
  simp only [Cockpit.modifiers, AllTimeless, List.mem_append] at h
  unfold Cockpit.handle
  rw [handlePanels_stamped hc o t _ (fun m hm => h m (.inl hm)), handleHandlers_stamped hc o t _ (fun m hm => h m (.inr hm))]

theorem handleCockpits_stamped (hc : CustomTimeless σ L) (o : Observation L) (t : Int) : ∀ cs : List (Cockpit σ L),
    AllTimeless (cs.flatMap Cockpit.modifiers) → handleCockpits (o.stamped t) cs = handleCockpits o cs
  | [], _ => rfl
  | c :: cs, h => by
    simp only [List.flatMap_cons, AllTimeless, List.mem_append] at h
    unfold handleCockpits
    rw [c.handle_stamped hc o t (fun m hm => h m (.inl hm)), handleCockpits_stamped hc o t cs (fun m hm => h m (.inr hm))]

/-- The timestamp decides only whether the observation is dropped. -/
theorem ProcessorState.receive_stamped (hc : CustomTimeless σ L) (s : ProcessorState σ L) (h : AllTimeless s.modifiers) (dec : Decider)
    (u : Tally) (o : Observation L) (t : Int) (hd : dec.shouldBeProcessed o = true ↔ dec.shouldBeProcessed (o.stamped t) = true) :
    s.receive dec u (.observation (o.stamped t)) = s.receive dec u (.observation o) := by
  simp only [ProcessorState.modifiers, AllTimeless, List.mem_append] at h
  unfold ProcessorState.receive
  dsimp only
  by_cases ho : dec.shouldBeProcessed o = true
  · rw [if_pos ho, if_pos (hd.1 ho), handleCockpits_stamped hc o t _ (fun m hm => h m (.inl hm)),
      handleHandlers_stamped hc o t _ (fun m hm => h m (.inr hm))]
  · rw [if_neg ho, if_neg (fun hx => ho (hd.2 hx))]

/-! ## The modifiers stay -/

omit [DecidableEq L] [Custom σ L]

theorem PanelHead.modifiers_bare (h : PanelHead L) : h.bare.modifiers = h.modifiers := by
  unfold PanelHead.modifiers PanelHead.bare
  cases h.counter <;> cases h.gauge <;> cases h.meter <;> cases h.histogram <;> rfl

mutual
theorem Panel.modifiers_bare : ∀ p : Panel σ L, p.bare.modifiers = p.modifiers
  | .mk h ps hs ss => by
    simp only [Panel.bare, Panel.modifiers, h.modifiers_bare, modifiersOfPanels_bare ps, modifiersOfHandlers_bare hs]
theorem modifiersOfPanels_bare : ∀ ps : List (Panel σ L), modifiersOfPanels (barePanels ps) = modifiersOfPanels ps
  | [] => rfl
  | p :: ps => by simp only [barePanels, modifiersOfPanels, Panel.modifiers_bare p, modifiersOfPanels_bare ps]
theorem Handler.modifiers_bare : ∀ h : Handler σ L, h.bare.modifiers = h.modifiers
  | .instrument _ => rfl
  | .gauge _ => rfl
  | .panel p => by simp only [Handler.bare, Handler.modifiers, Panel.modifiers_bare p]
  | .cockpit h ps hs ss => by simp only [Handler.bare, Handler.modifiers, modifiersOfPanels_bare ps, modifiersOfHandlers_bare hs]
  | .custom _ => rfl
theorem modifiersOfHandlers_bare : ∀ hs : List (Handler σ L), modifiersOfHandlers (bareHandlers hs) = modifiersOfHandlers hs
  | [] => rfl
  | h :: hs => by simp only [bareHandlers, modifiersOfHandlers, Handler.modifiers_bare h, modifiersOfHandlers_bare hs]
end

theorem Cockpit.modifiers_bare (c : Cockpit σ L) : c.bare.modifiers = c.modifiers := by
  simp only [Cockpit.bare, Cockpit.modifiers, modifiersOfPanels_bare, modifiersOfHandlers_bare]

theorem modifiersOfPanels_eq (ps : List (Panel σ L)) : modifiersOfPanels ps = ps.flatMap Panel.modifiers := by
  induction ps with
  | nil => rfl
  | cons p ps ih => rw [modifiersOfPanels, ih]; rfl

theorem modifiersOfHandlers_eq (hs : List (Handler σ L)) : modifiersOfHandlers hs = hs.flatMap Handler.modifiers := by
  induction hs with
  | nil => rfl
  | cons p ps ih => rw [modifiersOfHandlers, ih]; rfl

theorem cockpitModifiers_bare (cs : List (Cockpit σ L)) : (cs.map Cockpit.bare).flatMap Cockpit.modifiers = cs.flatMap Cockpit.modifiers := by
  induction cs with
  | nil => rfl
  | cons c cs ih => rw [List.map_cons, List.flatMap_cons, List.flatMap_cons, ih, c.modifiers_bare]

theorem ProcessorState.modifiers_addCockpit (s : ProcessorState σ L) (c : Cockpit σ L) {m : UpdateModifier L}
    (h : m ∈ (s.addCockpit c).modifiers) : m ∈ s.modifiers ∨ m ∈ c.modifiers := by
  have : (s.addCockpit c).modifiers = s.modifiers ∨
      (s.addCockpit c).modifiers = s.cockpits.flatMap Cockpit.modifiers ++ c.modifiers ++ modifiersOfHandlers s.handlers := by
    unfold ProcessorState.addCockpit
    split
    · split
      · exact .inl rfl
      · exact .inr (by simp [ProcessorState.modifiers])
    · exact .inr (by simp [ProcessorState.modifiers])
  rcases this with this | this
  · exact .inl (this ▸ h)
  · rw [this] at h
    simp only [ProcessorState.modifiers, List.mem_append] at h ⊢
    tauto

theorem ProcessorState.modifiers_addHandler (s : ProcessorState σ L) (x : Handler σ L) {m : UpdateModifier L}
    (h : m ∈ (s.addHandler x).modifiers) : m ∈ s.modifiers ∨ m ∈ x.modifiers := by
  simp only [ProcessorState.modifiers, ProcessorState.addHandler, modifiersOfHandlers_eq, List.flatMap_append, List.mem_append,
    List.flatMap_cons, List.flatMap_nil, List.append_nil] at h ⊢
  tauto

theorem modifyFirst_modifiers {name : String} {f : Cockpit σ L → Cockpit σ L} {l : List (UpdateModifier L)} {m : UpdateModifier L}
    (hf : ∀ c, m ∈ (f c).modifiers → m ∈ c.modifiers ∨ m ∈ l) : ∀ cs : List (Cockpit σ L),
    m ∈ (ProcessorState.modifyFirst name f cs).flatMap Cockpit.modifiers → m ∈ cs.flatMap Cockpit.modifiers ∨ m ∈ l
  | [], h => .inl h
  | c :: cs, h => by
    unfold ProcessorState.modifyFirst at h
    split at h
    · simp only [List.flatMap_cons, List.mem_append] at h ⊢
      rcases h with h | h
      · rcases hf c h with h | h
        · exact .inl (.inl h)
        · exact .inr h
      · exact .inl (.inr h)
    · simp only [List.flatMap_cons, List.mem_append] at h ⊢
      rcases h with h | h
      · exact .inl (.inl h)
      · rcases modifyFirst_modifiers hf cs h with h | h
        · exact .inl (.inr h)
        · exact .inr h

theorem ProcessorState.modifiers_set (s : ProcessorState σ L) (c : Call σ L) {m : UpdateModifier L} (h : m ∈ (s.set c).modifiers) :
    m ∈ s.modifiers ∨ m ∈ c.modifiers := by
  cases c with
  | addCockpit c => exact s.modifiers_addCockpit c h
  | addHandler x => exact s.modifiers_addHandler x h
  | _ => exact .inl h

variable [DecidableEq L] [Custom σ L]

theorem ProcessorState.modifiers_receive {s s' : ProcessorState σ L} {dec : Decider} {t t' : Tally} {x : Message σ L} {e : Env} {k k' : Nat}
    (hr : s.receive dec t x e k = some ((s', t'), k')) {m : UpdateModifier L} (h : m ∈ s'.modifiers) : m ∈ s.modifiers ∨ m ∈ x.modifiers := by
  cases x with
  | observation o =>
    unfold ProcessorState.receive at hr
    dsimp only at hr
    split at hr
    · obtain ⟨⟨cs, n⟩, k₁, h1, hr⟩ := M.bind_eq_some.1 hr
      obtain ⟨⟨hs, n'⟩, k₂, h2, hr⟩ := M.bind_eq_some.1 hr
      cases hr
      have h3 : bareHandlers hs = bareHandlers s.handlers := keepsBare_handleHandlers o s.handlers _ _ _ _ h2
      have h4 : cs.map Cockpit.bare = s.cockpits.map Cockpit.bare := by
        have : M.Post (handleCockpits o s.cockpits) fun r => r.1.map Cockpit.bare = s.cockpits.map Cockpit.bare := by
          generalize s.cockpits = l
          induction l with
          | nil => exact .pure rfl
          | cons c l ih => exact .bind _ (c.keepsBare_handle o) fun _ h₁ => .bind _ ih fun _ h₂ => .pure (by simp [h₁, h₂])
        exact this _ _ _ _ h1
      left
      simp only [ProcessorState.modifiers, List.mem_append] at h ⊢
      rw [← modifiersOfHandlers_bare, h3, modifiersOfHandlers_bare, ← cockpitModifiers_bare, h4, cockpitModifiers_bare] at h
      exact h
    · cases hr; exact .inl h
  | addCockpit c => cases hr; exact s.modifiers_addCockpit c h
  | addHandler c => cases hr; exact s.modifiers_addHandler c h
  | removeCockpit n =>
    cases hr
    left
    simp only [ProcessorState.modifiers, ProcessorState.removeCockpit, List.mem_append, List.mem_flatMap, List.mem_filter] at h ⊢
    rcases h with ⟨c, ⟨hc, _⟩, h⟩ | h
    · exact .inl ⟨c, hc, h⟩
    · exact .inr h
  | addPanelToCockpit n p =>
    cases hr
    simp only [ProcessorState.modifiers, List.mem_append] at h ⊢
    have hf : ∀ c : Cockpit σ L, m ∈ (c.addPanel p).modifiers → m ∈ c.modifiers ∨ m ∈ p.modifiers := by
      intro c hc
      unfold Cockpit.addPanel at hc
      split at hc
      · split at hc
        · exact .inl hc
        · simp only [Cockpit.modifiers, modifiersOfPanels_eq, List.flatMap_append, List.mem_append, List.flatMap_cons, List.flatMap_nil,
            List.append_nil] at hc ⊢
          tauto
      · simp only [Cockpit.modifiers, modifiersOfPanels_eq, List.flatMap_append, List.mem_append, List.flatMap_cons, List.flatMap_nil,
          List.append_nil] at hc ⊢
        tauto
    rcases h with h | h
    · rcases modifyFirst_modifiers hf s.cockpits h with h | h
      · exact .inl (.inl h)
      · exact .inr h
    · exact .inl (.inr h)
  | removePanelFromCockpit n q =>
    cases hr
    simp only [ProcessorState.modifiers, List.mem_append] at h ⊢
    left
    have hf : ∀ c : Cockpit σ L, m ∈ (c.removePanel q).modifiers → m ∈ c.modifiers ∨ m ∈ ([] : List (UpdateModifier L)) := by
      intro c hc
      left
      simp only [Cockpit.removePanel, Cockpit.modifiers, modifiersOfPanels_eq, List.mem_append, List.mem_flatMap, List.mem_filter] at hc ⊢
      rcases hc with ⟨p, ⟨hp, _⟩, hc⟩ | hc
      · exact .inl ⟨p, hp, hc⟩
      · exact .inr hc
    rcases h with h | h
    · rcases modifyFirst_modifiers hf s.cockpits h with h | h
      · exact .inl h
      · cases h
    · exact .inr h

/-! ## Happenings -/

theorem Happening.play_modifiers {e : Env} {x y : ProcessorState σ L × Tally} {h : Happening σ L} (hp : h.play e x = some y)
    {m : UpdateModifier L} (hm : m ∈ y.1.modifiers) : m ∈ x.1.modifiers ∨ m ∈ h.modifiers := by
  cases h with
  | set c =>
    cases hp
    exact x.1.modifiers_set c hm
  | message n strategy msg =>
    unfold Happening.play at hp
    dsimp only at hp
    obtain ⟨⟨z, k⟩, hz, rfl⟩ := Option.map_eq_some_iff.1 hp
    obtain ⟨dec, k₁, h1, hz⟩ := M.bind_eq_some.1 hz
    obtain ⟨⟨s, t⟩, k₂, h2, hz⟩ := M.bind_eq_some.1 hz
    cases hz
    exact ProcessorState.modifiers_receive h2 hm

theorem Happening.Restamped.play (hc : CustomTimeless σ L) {e : Env} {h h' : Happening σ L} (hr : h.Restamped e h')
    (x : ProcessorState σ L × Tally) (hx : AllTimeless x.1.modifiers) : h'.play e x = h.play e x := by
  cases hr with
  | same => rfl
  | observation m strategy o t hk =>
    unfold Happening.play
    dsimp only
    rw [M.run_bind, M.run_bind]
    cases hd : strategy.decider (e.at m) 0 with
    | none => rfl
    | some r =>
      obtain ⟨dec, k⟩ := r
      have hs := (decider_spec (L := L) hd).2
      have hclock : (e.at m).clock 0 = e.clock m := (e.at_frozen m).clock 0
      dsimp only
      rw [ProcessorState.receive_stamped hc x.1 hx dec x.2 o t (by rw [hs, hs, hclock]; exact hk)]

theorem Happening.Restamped.plays (hc : CustomTimeless σ L) {e : Env} {hs hs' : List (Happening σ L)}
    (hr : List.Forall₂ (Happening.Restamped e) hs hs') (x : ProcessorState σ L × Tally) (hx : AllTimeless x.1.modifiers)
    (hm : ∀ h ∈ hs, AllTimeless h.modifiers) : hs'.foldlM (Happening.play e) x = hs.foldlM (Happening.play e) x := by
  induction hr generalizing x with
  | nil => rfl
  | @cons h h' hs hs' hr _ ih =>
    rw [List.foldlM_cons, List.foldlM_cons, hr.play hc x hx]
    cases hp : h.play e x with
    | none => rfl
    | some y =>
      refine ih y (fun m hy => ?_) (fun a ha => hm a (List.mem_cons_of_mem _ ha))
      rcases Happening.play_modifiers hp hy with hy | hy
      · exact hx m hy
      · exact hm h List.mem_cons_self m hy

omit [DecidableEq L] [Custom σ L] in
theorem Happening.Restamped.instruments {e : Env} {h h' : Happening σ L} (hr : h.Restamped e h') : h'.instruments = h.instruments := by
  cases hr <;> rfl

omit [DecidableEq L] [Custom σ L] in
theorem Happening.Restamped.ringsOk {e : Env} {hs hs' : List (Happening σ L)} (hr : List.Forall₂ (Happening.Restamped e) hs hs')
    (h : ∀ a ∈ hs, RingsOk a.instruments) : ∀ a ∈ hs', RingsOk a.instruments := by
  induction hr with
  | nil => exact nofun
  | @cons a a' hs hs' hr _ ih =>
    intro b hb
    rcases List.mem_cons.1 hb with rfl | hb
    · rw [hr.instruments]; exact h a List.mem_cons_self
    · exact ih (fun c hc => h c (List.mem_cons_of_mem _ hc)) b hb

end Metrix
