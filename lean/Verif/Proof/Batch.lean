import Verif.Spec.Batch
import Verif.Proof.Happening
import Verif.Proof.Layout

/-! Occurrences that are reported together do the same as if they were reported one by one. -/

namespace Metrix
variable {σ L : Type}

/-! ## One occurrence -/

theorem Meter.update_one (i : Meter) (t : Int) : i.update (.observations 1 t) = i.update (.observation t) := rfl

theorem Instrument.update_one [Custom σ L] (hc : CustomCounts σ L) (i : Instrument σ) (t : Int) :
    i.update L (.observations 1 t) = i.update L (.observation t) := by
  cases i with
  | custom s => unfold Instrument.update; dsimp only; rw [hc.updateOne]
  | _ => rfl

section One

variable [DecidableEq L]

theorem InstrumentAdapter.handle_one {I : Type} {update : I → Update → M (I × Nat)}
    (hu : ∀ i t, update i (.observations 1 t) = update i (.observation t)) {a : InstrumentAdapter L I} {l : L} (ha : a.reaction.Counts l)
    (t : Int) : a.handle update (.observed l 1 t) = a.handle update (.observedOne l t) := by
  unfold InstrumentAdapter.handle
  simp only [Observation.toUpdate, Observation.label]
  rw [show a.modifyUpdate.modify l (.observation t) = _ from ha.1 t, show a.modifyUpdate.modify l (.observations 1 t) = _ from ha.2.1 1 t, hu]
  rfl

theorem GaugeAdapter.handle_other {a : GaugeAdapter L} {l : L} (ha : a.reaction.Counts l) {o : Observation L}
    (ho : (∃ n t, o = .observed l n t) ∨ ∃ t, o = .observedOne l t) : a.handle o = pure (a, 0) := by
  obtain ⟨h1, h2, h3⟩ := ha
  have hl : o.label = l := by rcases ho with ⟨n, t, rfl⟩ | ⟨t, rfl⟩ <;> rfl
  have hu : (∃ t, a.modifyUpdate.modify l o.toUpdate = .observation t) ∨ ∃ n t, a.modifyUpdate.modify l o.toUpdate = .observations n t := by
    rcases ho with ⟨n, t, rfl⟩ | ⟨t, rfl⟩
    · exact .inr ⟨n, t, h2 n t⟩
    · exact .inl ⟨t, h1 t⟩
  have hg : a.updateGauge (a.modifyUpdate.modify l o.toUpdate) = pure (a, 0) := by
    rcases hu with ⟨t, hu⟩ | ⟨n, t, hu⟩ <;> rw [hu] <;> rfl
  unfold GaugeAdapter.handle
  rw [hl]
  cases hs : a.strategy with
  | filter f =>
    dsimp only
    split
    · exact hg
    · rfl
  | deltasOnly f =>
    dsimp only
    split
    · rcases hu with ⟨t, hu⟩ | ⟨n, t, hu⟩ <;> rw [hu]
    · rfl
  | incDecOnLabels inc dec =>
    have h4 : a.reaction.steps = [inc, dec] := by simp [GaugeAdapter.reaction, hs]
    have h5 := h3 inc (by simp [h4])
    have h6 := h3 dec (by simp [h4])
    simp [h5, h6]


theorem GaugeAdapter.handle_one {a : GaugeAdapter L} {l : L} (ha : a.reaction.Counts l) (t : Int) :
    a.handle (.observed l 1 t) = a.handle (.observedOne l t) := by
  rw [a.handle_other ha (.inl ⟨_, _, rfl⟩), a.handle_other ha (.inr ⟨_, rfl⟩)]

/-- All of them count occurrences with this label. -/
abbrev AllCount (l : L) (rs : List (Reaction L)) : Prop := ∀ r ∈ rs, r.Counts l

theorem PanelHead.handle_one {h : PanelHead L} {l : L} (hh : AllCount l h.reactions) (t : Int) :
    h.handle (.observed l 1 t) = h.handle (.observedOne l t) := by
  have h1 : handleSlot (·.handle IsInstrument.update (.observed l 1 t)) h.counter =
      handleSlot (·.handle IsInstrument.update (.observedOne l t)) h.counter := by
    cases hs : h.counter with
    | none => rfl
    | some a =>
      simp only [handleSlot]
      rw [a.handle_one (update := IsInstrument.update) (fun _ _ => rfl) (hh _ (by simp [PanelHead.reactions, hs]))]
  have h2 : handleSlot (·.handle (.observed l 1 t)) h.gauge = handleSlot (·.handle (.observedOne l t)) h.gauge := by
    cases hs : h.gauge with
    | none => rfl
    | some a =>
      simp only [handleSlot]
      rw [a.handle_one (hh _ (by simp [PanelHead.reactions, hs]))]
  have h3 : handleSlot (·.handle IsInstrument.update (.observed l 1 t)) h.meter =
      handleSlot (·.handle IsInstrument.update (.observedOne l t)) h.meter := by
    cases hs : h.meter with
    | none => rfl
    | some a =>
      simp only [handleSlot]
      rw [a.handle_one (update := IsInstrument.update) (fun _ _ => rfl) (hh _ (by simp [PanelHead.reactions, hs]))]
  have h4 : handleSlot (·.handle IsInstrument.update (.observed l 1 t)) h.histogram =
      handleSlot (·.handle IsInstrument.update (.observedOne l t)) h.histogram := by
    cases hs : h.histogram with
    | none => rfl
    | some a =>
      simp only [handleSlot]
      rw [a.handle_one (update := IsInstrument.update) (fun _ _ => rfl) (hh _ (by simp [PanelHead.reactions, hs]))]
  unfold PanelHead.handle
  rw [h1, h2, h3, h4]

variable [Custom σ L]

mutual
theorem Panel.handle_one (hc : CustomCounts σ L) (l : L) (t : Int) : ∀ p : Panel σ L, AllCount l p.reactions →
    p.handle (.observed l 1 t) = p.handle (.observedOne l t)
  | .mk h ps hs ss, hp => by
    simp only [Panel.reactions, AllCount, List.mem_append] at hp
    unfold Panel.handle
    rw [h.handle_one (fun m hm => hp m (.inl (.inl hm))),
      handlePanels_one hc l t ps (fun m hm => hp m (.inl (.inr hm))), handleHandlers_one hc l t hs (fun m hm => hp m (.inr hm))]
    rfl
theorem handlePanels_one (hc : CustomCounts σ L) (l : L) (t : Int) : ∀ ps : List (Panel σ L),
    AllCount l (reactionsOfPanels ps) → handlePanels (.observed l 1 t) ps = handlePanels (.observedOne l t) ps
  | [], _ => rfl
  | p :: ps, hp => by
    simp only [reactionsOfPanels, AllCount, List.mem_append] at hp
    unfold handlePanels
    rw [Panel.handle_one hc l t p (fun m hm => hp m (.inl hm)), handlePanels_one hc l t ps (fun m hm => hp m (.inr hm))]
theorem Handler.handle_one (hc : CustomCounts σ L) (l : L) (t : Int) : ∀ h : Handler σ L, AllCount l h.reactions →
    h.handle (.observed l 1 t) = h.handle (.observedOne l t)
  | .instrument a, hp => by
    unfold Handler.handle
    rw [a.handle_one (Instrument.update_one hc) (hp _ (by simp [Handler.reactions]))]
  | .gauge a, hp => by
    unfold Handler.handle
    rw [a.handle_one (hp _ (by simp [Handler.reactions]))]
  | .panel p, hp => by
    unfold Handler.handle
    rw [Panel.handle_one hc l t p hp]
  | .cockpit h ps hs ss, hp => by
    simp only [Handler.reactions, AllCount, List.mem_append] at hp
    unfold Handler.handle
    rw [handlePanels_one hc l t ps (fun m hm => hp m (.inl hm)), handleHandlers_one hc l t hs (fun m hm => hp m (.inr hm))]
  | .custom s, _ => by
    unfold Handler.handle
    rw [hc.handleOne]
theorem handleHandlers_one (hc : CustomCounts σ L) (l : L) (t : Int) : ∀ hs : List (Handler σ L),
    AllCount l (reactionsOfHandlers hs) → handleHandlers (.observed l 1 t) hs = handleHandlers (.observedOne l t) hs
  | [], _ => rfl
  | h :: hs, hp => by
    simp only [reactionsOfHandlers, AllCount, List.mem_append] at hp
    unfold handleHandlers
    rw [Handler.handle_one hc l t h (fun m hm => hp m (.inl hm)), handleHandlers_one hc l t hs (fun m hm => hp m (.inr hm))]
end

theorem Cockpit.handle_one (hc : CustomCounts σ L) {l : L} (t : Int) {c : Cockpit σ L} (h : AllCount l c.reactions) :
    c.handle (.observed l 1 t) = c.handle (.observedOne l t) := by
  simp only [Cockpit.reactions, AllCount, List.mem_append] at h
  unfold Cockpit.handle
  rw [handlePanels_one hc l t _ (fun m hm => h m (.inl hm)), handleHandlers_one hc l t _ (fun m hm => h m (.inr hm))]

theorem handleCockpits_one (hc : CustomCounts σ L) (l : L) (t : Int) : ∀ cs : List (Cockpit σ L),
    AllCount l (cs.flatMap Cockpit.reactions) → handleCockpits (.observed l 1 t) cs = handleCockpits (.observedOne l t) cs
  | [], _ => rfl
  | c :: cs, h => by
    simp only [List.flatMap_cons, AllCount, List.mem_append] at h
    unfold handleCockpits
    rw [c.handle_one hc t (fun m hm => h m (.inl hm)), handleCockpits_one hc l t cs (fun m hm => h m (.inr hm))]

end One

/-! ## One occurrence more -/

section More

variable {e : Env} {t : Int}

theorem Joins.map {S T : Type} {f g h : S → M (S × Nat)} {f' g' h' : T → M (T × Nat)} (w : S → T)
    {x : S} (hj : Joins e f g h x) (hf : ∀ x, f' (w x) = do let r ← f x; return (w r.1, r.2)) (hg : ∀ x, g' (w x) = do let r ← g x; return (w r.1, r.2))
    (hh : ∀ x, h' (w x) = do let r ← h x; return (w r.1, r.2)) : Joins e f' g' h' (w x) := by
  intro k k₁ k₁' k₂ k₂' z y c c' h1 h2
  rw [hf] at h1
  obtain ⟨⟨z, c⟩, k₃, h3, h1⟩ := M.bind_eq_some.1 h1
  cases h1
  rw [hg] at h2
  obtain ⟨⟨y, c'⟩, k₄, h4, h2⟩ := M.bind_eq_some.1 h2
  cases h2
  obtain ⟨rfl, k', h5⟩ := hj k _ _ _ _ _ _ _ _ h3 h4
  rw [hh, M.run_bind_some h5]
  exact ⟨rfl, _, rfl⟩

theorem Joins.nothing {S : Type} (x : S) : Joins e (fun x => pure (x, 0)) (fun x => pure (x, 0)) (fun x => pure (x, 0)) x := by
  intro k k₁ k₁' k₂ k₂' z y c c' h1 h2
  cases h1; cases h2
  exact ⟨rfl, _, rfl⟩

/-- What happens twice at the same moment might as well have happened once. -/
theorem Joins.once {S : Type} {f : S → M (S × Nat)} {w : S → S} {n : Nat} {x : S} (hw : ∀ x, w (w x) = w x)
    (hf : ∀ x k r, f x e k = some r → r.1 = (w x, n)) (hs : ∀ k k', f x e k ≠ none → f x e k' ≠ none) : Joins e f f f x := by
  intro k k₁ k₁' k₂ k₂' z y c c' h1 h2
  have h3 := hf _ _ _ h1
  have h4 := hf _ _ _ h2
  cases h3; cases h4
  refine ⟨rfl, ?_⟩
  cases h5 : f x e k with
  | none => exact absurd h5 (hs k₁ k (by rw [h1]; nofun))
  | some r =>
    have := hf _ _ _ h5
    obtain ⟨r, k'⟩ := r
    dsimp only at this
    rw [this, hw]
    exact ⟨_, rfl⟩

theorem arithU64_join {x n a b k k₁ k₁' k₂ k₂' : Nat} (h1 : arithU64 (x + n) e k₁ = some (a, k₁'))
    (h2 : arithU64 (a + 1) e k₂ = some (b, k₂')) : arithU64 (x + (n + 1)) e k = some (b, k) := by
  obtain ⟨-, rfl, h1'⟩ := arithU64_eq_some h1
  obtain ⟨-, rfl, h2'⟩ := arithU64_eq_some h2
  cases hp : e.profile with
  | debug =>
    have h3 := h1' hp
    have h4 := h2' hp
    unfold U64 u64Bound at h3 h4
    have h5 : U64 (x + (n + 1)) := by unfold U64 u64Bound; omega
    rw [arithU64_inRange h5]
    unfold U64 u64Bound at *
    congr 2
    omega
  | release =>
    rw [arithU64_release hp]
    unfold u64Bound
    congr 2
    omega

theorem arithI64_join {x a b : Int} {n k k₁ k₁' k₂ k₂' : Nat} (h1 : arithI64 (x + n) e k₁ = some (a, k₁'))
    (h2 : arithI64 (a + 1) e k₂ = some (b, k₂')) : arithI64 (x + (n + 1 : Nat)) e k = some (b, k) := by
  obtain ⟨-, rfl, h1'⟩ := arithI64_eq_some h1
  obtain ⟨-, rfl, h2'⟩ := arithI64_eq_some h2
  have h0 : x + (n + 1 : Nat) = x + n + 1 := by push_cast; ring
  cases hp : e.profile with
  | debug =>
    have h3 := h1' hp
    have h4 := h2' hp
    rw [wrapI64_of_I64 h3] at h4 ⊢
    rw [h0, arithI64_inRange h4, wrapI64_of_I64 h4]
  | release => rw [arithI64_release hp, wrapI64_wrapI64_add, h0]

theorem Counter.joins (c : Counter) (n : Nat) (s : Int) :
    Joins e (Counter.update · (.observations n s)) (Counter.update · (.observation s)) (Counter.update · (.observations (n + 1) s)) c := by
  intro k k₁ k₁' k₂ k₂' z y r r' h1 h2
  obtain ⟨_, _, h1, h1'⟩ := M.bind_eq_some.1 h1
  cases h1'
  obtain ⟨_, _, h2, h2'⟩ := M.bind_eq_some.1 h2
  cases h2'
  obtain ⟨a, _, h1, h1'⟩ := M.bind_eq_some.1 h1
  cases h1'
  obtain ⟨b, _, h2, h2'⟩ := M.bind_eq_some.1 h2
  cases h2'
  refine ⟨rfl, ?_⟩
  have h3 : arithU64 (c.count + (n + 1)) e k = some (b, k) := arithU64_join h1 h2
  refine ⟨k, ?_⟩
  show (c.incBy (n + 1) >>= fun x => pure (x, 1)) e k = _
  have h4 : c.incBy (n + 1) e k = some ({ c with count := b }, k) := by
    unfold Counter.incBy
    rw [M.run_bind_some h3]; rfl
  rw [M.run_bind_some h4]; rfl

/-- The meter after marking. -/
def Meter.marked (rnd : Rat → Rat) (t : Int) (m : Meter) (n c : Int) : Meter :=
  let s := m.inner.catchUp rnd t
  { m with
    lastTick := if sinceNs t m.lastTick ≥ tickNs then t else m.lastTick
    inner := { s with
      count := c
      ewma1 := s.ewma1.update (wrapU64 n), ewma5 := s.ewma5.update (wrapU64 n), ewma15 := s.ewma15.update (wrapU64 n) } }

theorem mark_tickIfDue (hf : Frozen e t) (m : Meter) (n : Int) (k : Nat) : ∃ k₁ k₂, (do
      let m ← m.tickIfDue
      return ({ m with inner := ← m.inner.mark n }, 1) : M (Meter × Nat)) e k =
    (arithI64 ((m.inner.catchUp e.rnd t).count + n) e k₁).map fun r => ((m.marked e.rnd t n r.1, 1), k₂) := by
  have arith : ∀ x : Int, ∃ o : Option Int, ∀ k₁ : Nat, arithI64 x e k₁ = o.map (·, k₁) := by
    intro x
    unfold arithI64
    by_cases hx : I64 x
    · exact ⟨some x, fun k => by rw [if_pos hx]; rfl⟩
    · cases hp : e.profile with
      | debug => exact ⟨none, fun k => by rw [if_neg hx]; rfl⟩
      | release => exact ⟨some (wrapI64 x), fun k => by rw [if_neg hx]; rfl⟩
  have hmark : ∀ (s : StdMeter) k, s.mark n e k = (arithI64 ((s.catchUp e.rnd t).count + n) e (k + 1)).map fun r =>
      ({ s.catchUp e.rnd t with
        count := r.1
        ewma1 := (s.catchUp e.rnd t).ewma1.update (wrapU64 n)
        ewma5 := (s.catchUp e.rnd t).ewma5.update (wrapU64 n)
        ewma15 := (s.catchUp e.rnd t).ewma15.update (wrapU64 n) }, r.2) := by
    intro s k
    have h1 : s.tick e k = some (s.catchUp e.rnd t, k + 1) := by
      show some (s.catchUp e.rnd (e.clock k), k + 1) = _
      rw [hf.clock]
    unfold StdMeter.mark
    rw [M.run_bind_some h1]
    cases h2 : arithI64 ((s.catchUp e.rnd t).count + n) e (k + 1) with
    | none => rw [M.run_bind, h2]; rfl
    | some r => rw [M.run_bind_some h2]; rfl
  obtain ⟨o, ho⟩ := arith ((m.inner.catchUp e.rnd t).count + n)
  have htick : ∃ k', m.tickIfDue e k = some ({ m with
      lastTick := if sinceNs t m.lastTick ≥ tickNs then t else m.lastTick
      inner := if sinceNs t m.lastTick ≥ tickNs then m.inner.catchUp e.rnd t else m.inner }, k') := by
    unfold Meter.tickIfDue
    rw [M.run_bind_some (M.run_now _ _), hf.clock]
    split
    · refine ⟨k + 1 + 1 + 1, ?_⟩
      show some (({ m with inner := m.inner.catchUp e.rnd (e.clock (k + 1)), lastTick := e.clock (k + 2) } : Meter), _) = _
      rw [hf.clock, hf.clock]
    · exact ⟨_, rfl⟩
  obtain ⟨k', htick⟩ := htick
  refine ⟨k' + 1, k' + 1, ?_⟩
  rw [M.run_bind_some htick, M.run_bind, hmark]
  have hcc : (if sinceNs t m.lastTick ≥ tickNs then m.inner.catchUp e.rnd t else m.inner).catchUp e.rnd t = m.inner.catchUp e.rnd t := by
    split
    · exact StdMeter.catchUp_catchUp _ (le_refl t) _
    · rfl
  rw [hcc, ho]
  cases o with
  | none => rfl
  | some c => rfl

theorem StdMeter.catchUp_nextTick (rnd : Rat → Rat) (now : Int) (s : StdMeter) : now < (s.catchUp rnd now).nextTick := by
  induction s using StdMeter.catchUp.induct rnd now with
  | case1 s h ih => rw [StdMeter.catchUp, if_pos h]; exact ih
  | case2 s h => rw [StdMeter.catchUp, if_neg h]; omega

theorem Ewma.update_join (w : Ewma) {n : Nat} (hn : ((n + 1 : Nat) : Int) ≤ i64Max) :
    (w.update (wrapU64 n)).update (wrapU64 1) = w.update (wrapU64 (n + 1 : Nat)) := by
  unfold i64Max at hn
  rw [wrapU64_natCast (n := n) (by unfold U64 u64Bound; omega), wrapU64_natCast (n := n + 1) (by unfold U64 u64Bound; omega)]
  unfold Ewma.update
  dsimp only
  congr 1
  have : wrapU64 1 = 1 := by decide
  rw [this]
  unfold u64Bound
  omega

theorem Meter.marked_marked (rnd : Rat → Rat) (t : Int) (m : Meter) {n : Nat} (hn : ((n + 1 : Nat) : Int) ≤ i64Max) (c c' : Int) :
    (m.marked rnd t n c).marked rnd t 1 c' = m.marked rnd t (n + 1 : Nat) c' := by
  have h1 : (m.marked rnd t n c).inner.catchUp rnd t = (m.marked rnd t n c).inner := by
    have := m.inner.catchUp_nextTick rnd t
    rw [StdMeter.catchUp, if_neg]
    unfold Meter.marked
    dsimp only
    omega
  have h2 : (if sinceNs t (m.marked rnd t n c).lastTick ≥ tickNs then t else (m.marked rnd t n c).lastTick) =
      if sinceNs t m.lastTick ≥ tickNs then t else m.lastTick := by
    unfold Meter.marked
    dsimp only
    split
    · simp [sinceNs, tickNs]
    · rfl
  rw [Meter.marked, h1, h2]
  unfold Meter.marked
  dsimp only
  rw [Ewma.update_join _ hn, Ewma.update_join _ hn, Ewma.update_join _ hn]

theorem Meter.joins (hf : Frozen e t) (m : Meter) {n : Nat} (h0 : 0 < n) (hn : ((n + 1 : Nat) : Int) ≤ i64Max) (s : Int) :
    Joins e (Meter.update · (.observations n s)) (Meter.update · (.observation s)) (Meter.update · (.observations (n + 1) s)) m := by
  have many : ∀ (m : Meter) {n : Nat}, 0 < n → (n : Int) ≤ i64Max → m.update (.observations n s) = do
      let m ← m.tickIfDue
      return ({ m with inner := ← m.inner.mark n }, 1) := by
    intro m n h0 hn
    unfold Meter.update
    dsimp only
    congr 1
    funext m'
    rw [if_pos ⟨hn, by omega⟩]
  intro k k₁ k₁' k₂ k₂' z y r r' h1 h2
  dsimp only at h1 h2
  obtain ⟨k₃, k₄, h3⟩ := mark_tickIfDue hf m n k₁
  rw [many m h0 (by push_cast at hn; omega), h3] at h1
  obtain ⟨⟨a, _⟩, h4, h1⟩ := Option.map_eq_some_iff.1 h1
  cases h1
  obtain ⟨k₅, k₆, h5⟩ := mark_tickIfDue hf (m.marked e.rnd t n a) 1 k₂
  have h2 := h5.symm.trans h2
  obtain ⟨⟨b, _⟩, h6, h2⟩ := Option.map_eq_some_iff.1 h2
  cases h2
  refine ⟨rfl, ?_⟩
  obtain ⟨k₇, k₈, h7⟩ := mark_tickIfDue hf m (n + 1 : Nat) k
  show ∃ k', m.update (.observations (n + 1) s) e k = _
  rw [many m (by omega) hn, h7]
  have h8 : ((m.marked e.rnd t n a).inner.catchUp e.rnd t).count = a := by
    have := m.inner.catchUp_nextTick e.rnd t
    rw [StdMeter.catchUp, if_neg]
    · rfl
    · unfold Meter.marked
      dsimp only
      omega
  rw [h8] at h6
  rw [arithI64_join h4 h6, Meter.marked_marked _ _ _ hn]
  exact ⟨_, rfl⟩

theorem Histogram.joins (hf : Frozen e t) (i : Histogram) (n : Nat) (s : Int) :
    Joins e (Histogram.update · (.observations n s)) (Histogram.update · (.observation s)) (Histogram.update · (.observations (n + 1) s)) i := by
  have key : ∀ (i : Histogram) (u : Update) (k : Nat), u.observedValue = none → ∃ k', i.update u e k =
      some (((match i.maxInactivity with
        | some d => if i.resetAfterInactivity = true ∧ sinceNs t i.lastUpdate > d then { i with inner := [] } else i
        | none => i), 0), k') := by
    intro i u k hu
    have h1 : ∃ k', i.resetIfDue e k = some ((match i.maxInactivity with
        | some d => if i.resetAfterInactivity = true ∧ sinceNs t i.lastUpdate > d then { i with inner := [] } else i
        | none => i), k') := by
      unfold Histogram.resetIfDue
      cases i.maxInactivity with
      | none => exact ⟨_, rfl⟩
      | some d =>
        dsimp only
        by_cases hr : i.resetAfterInactivity = true
        · rw [if_pos hr, M.run_bind_some (M.run_now _ _), hf.clock]
          by_cases hd : sinceNs t i.lastUpdate > d
          · rw [if_pos hd, if_pos ⟨hr, hd⟩]; exact ⟨_, rfl⟩
          · rw [if_neg hd, if_neg (fun h => hd h.2)]; exact ⟨_, rfl⟩
        · rw [if_neg hr, if_neg (fun h => hr h.1)]; exact ⟨_, rfl⟩
    obtain ⟨k', h1⟩ := h1
    refine ⟨k', ?_⟩
    unfold Histogram.update
    rw [M.run_bind_some h1]
    cases u with
    | withValue v _ => cases hu
    | _ => rfl
  intro k k₁ k₁' k₂ k₂' z y c c' h1 h2
  obtain ⟨_, h3⟩ := key i (.observations n s) k₁ rfl
  have h1 := h3.symm.trans h1
  cases h1
  obtain ⟨_, h4⟩ := key (match i.maxInactivity with
    | some d => if i.resetAfterInactivity = true ∧ sinceNs t i.lastUpdate > d then { i with inner := [] } else i
    | none => i) (.observation s) k₂ rfl
  have h2 := h4.symm.trans h2
  cases h2
  refine ⟨rfl, ?_⟩
  obtain ⟨k', h5⟩ := key i (.observations (n + 1) s) k rfl
  refine ⟨k', h5.trans ?_⟩
  congr 3
  cases hm : i.maxInactivity with
  | none => simp [hm]
  | some d =>
    dsimp only
    split
    · rename_i h; simp [hm]
    · rename_i h; simp [hm, h]

/-- What is put there at the same moment is the same. -/
theorem joins_once {S : Type} {f g h : S → M (S × Nat)} {w : S → Option (S × Nat)} (hf : ∀ x k, (f x e k).map (·.1) = w x)
    (hg : ∀ x k, (g x e k).map (·.1) = w x) (hh : ∀ x k, (h x e k).map (·.1) = w x)
    (hw : ∀ x r, w x = some r → w r.1 = some r) (x : S) : Joins e f g h x := by
  intro k k₁ k₁' k₂ k₂' z y c c' h1 h2
  have h3 := hf x k₁
  rw [h1] at h3
  have h4 := hg z k₂
  rw [h2, hw x _ h3.symm] at h4
  cases h4
  have h5 := hh x k
  rw [← h3] at h5
  obtain ⟨⟨_, k'⟩, h6, h7⟩ := Option.map_eq_some_iff.1 h5
  cases h7
  exact ⟨rfl, k', h6⟩

theorem Instrument.joins [Custom σ L] (hc : CustomCounts σ L) (hf : Frozen e t) (hx : ∃ e₀ m, e = Env.at e₀ m) (i : Instrument σ) {n : Nat}
    (h0 : 0 < n) (hn : ((n + 1 : Nat) : Int) ≤ i64Max) (s : Int) :
    Joins e (Instrument.update L · (.observations n s)) (Instrument.update L · (.observation s))
      (Instrument.update L · (.observations (n + 1) s)) i := by
  cases i with
  | counter i => exact Joins.map Instrument.counter (i.joins n s) (fun _ => rfl) (fun _ => rfl) (fun _ => rfl)
  | gauge i => exact Joins.map Instrument.gauge (Joins.nothing i) (fun _ => rfl) (fun _ => rfl) (fun _ => rfl)
  | meter i => exact Joins.map Instrument.meter (i.joins hf h0 hn s) (fun _ => rfl) (fun _ => rfl) (fun _ => rfl)
  | valueMeter i => exact Joins.map Instrument.valueMeter (Joins.nothing i) (fun _ => rfl) (fun _ => rfl) (fun _ => rfl)
  | histogram i => exact Joins.map Instrument.histogram (i.joins hf n s) (fun _ => rfl) (fun _ => rfl) (fun _ => rfl)
  | flag i => exact Joins.map Instrument.flag (Joins.nothing i) (fun _ => rfl) (fun _ => rfl) (fun _ => rfl)
  | dataDisplay i => exact Joins.map Instrument.dataDisplay (Joins.nothing i) (fun _ => rfl) (fun _ => rfl) (fun _ => rfl)
  | staircaseTimer i =>
    have key : ∀ (i : StaircaseTimer) k, (i.update (.observation s) e k).map (·.1) = (addDur t i.switchOffAfter e 0).map fun r =>
        ({ i with stayOnUntil := some r.1 }, 1) := by
      intro i k
      unfold StaircaseTimer.update
      rw [M.run_bind_some (M.run_now _ _), hf.clock, M.run_bind]
      unfold addDur
      by_cases h : t + i.switchOffAfter ≤ e.instMax
      · rw [if_pos h, if_pos h]; rfl
      · rw [if_neg h, if_neg h]; rfl
    refine Joins.map Instrument.staircaseTimer (fun _ => rfl) (fun _ => rfl) (fun _ => rfl)
      (f := (StaircaseTimer.update · (.observation s))) (g := (StaircaseTimer.update · (.observation s)))
      (h := (StaircaseTimer.update · (.observation s))) (hj := joins_once (w := fun i => (addDur t i.switchOffAfter e 0).map fun r =>
        ({ i with stayOnUntil := some r.1 }, 1)) key key key ?_ i)
    intro i r h
    obtain ⟨⟨u, k⟩, h1, rfl⟩ := Option.map_eq_some_iff.1 h
    dsimp only
    rw [h1]; rfl
  | occurrenceIndicator i =>
    refine Joins.map Instrument.occurrenceIndicator (fun _ => rfl) (fun _ => rfl) (fun _ => rfl)
      (f := (OccurrenceIndicator.update · (.observation s))) (g := (OccurrenceIndicator.update · (.observation s)))
      (h := (OccurrenceIndicator.update · (.observation s))) (hj := joins_once (w := fun i => some ({ i with happenedLast := t }, 1))
        (fun i k => ?_) (fun i k => ?_) (fun i k => ?_) ?_ i)
    · show some (({ i with happenedLast := e.clock k } : OccurrenceIndicator), 1) = _; rw [hf.clock]
    · show some (({ i with happenedLast := e.clock k } : OccurrenceIndicator), 1) = _; rw [hf.clock]
    · show some (({ i with happenedLast := e.clock k } : OccurrenceIndicator), 1) = _; rw [hf.clock]
    · rintro i r h; cases h; rfl
  | nonOccurrenceIndicator i =>
    refine Joins.map Instrument.nonOccurrenceIndicator (fun _ => rfl) (fun _ => rfl) (fun _ => rfl)
      (f := (NonOccurrenceIndicator.update · (.observation s))) (g := (NonOccurrenceIndicator.update · (.observation s)))
      (h := (NonOccurrenceIndicator.update · (.observation s))) (hj := joins_once (w := fun i => some ({ i with happenedLast := t }, 1))
        (fun i k => ?_) (fun i k => ?_) (fun i k => ?_) ?_ i)
    · show some (({ i with happenedLast := e.clock k } : NonOccurrenceIndicator), 1) = _; rw [hf.clock]
    · show some (({ i with happenedLast := e.clock k } : NonOccurrenceIndicator), 1) = _; rw [hf.clock]
    · show some (({ i with happenedLast := e.clock k } : NonOccurrenceIndicator), 1) = _; rw [hf.clock]
    · rintro i r h; cases h; rfl
  | lastOccurrenceTracker i =>
    refine Joins.map Instrument.lastOccurrenceTracker (fun _ => rfl) (fun _ => rfl) (fun _ => rfl)
      (f := (LastOccurrenceTracker.update · (.observation s))) (g := (LastOccurrenceTracker.update · (.observation s)))
      (h := (LastOccurrenceTracker.update · (.observation s))) (hj := joins_once (w := fun i => some ({ i with happenedLast := some t }, 1))
        (fun i k => ?_) (fun i k => ?_) (fun i k => ?_) ?_ i)
    · show some (({ i with happenedLast := some (e.clock k) } : LastOccurrenceTracker), 1) = _; rw [hf.clock]
    · show some (({ i with happenedLast := some (e.clock k) } : LastOccurrenceTracker), 1) = _; rw [hf.clock]
    · show some (({ i with happenedLast := some (e.clock k) } : LastOccurrenceTracker), 1) = _; rw [hf.clock]
    · rintro i r h; cases h; rfl
  | custom i =>
    obtain ⟨e₀, m, rfl⟩ := hx
    exact Joins.map Instrument.custom (hc.update i e₀ m n s h0) (fun _ => rfl) (fun _ => rfl) (fun _ => rfl)

variable [DecidableEq L]

theorem InstrumentAdapter.joins {I : Type} {update : I → Update → M (I × Nat)} {a : InstrumentAdapter L I} {l : L} (ha : a.reaction.Counts l)
    {n : Nat} {s : Int} (hi : Joins e (update · (.observations n s)) (update · (.observation s)) (update · (.observations (n + 1) s)) a.instrument) :
    Joins e (InstrumentAdapter.handle update · (.observed l n s)) (InstrumentAdapter.handle update · (.observedOne l s))
      (InstrumentAdapter.handle update · (.observed l (n + 1) s)) a := by
  have hm : ∀ (i : I) (o : Observation L), o.label = l → o.toUpdate = .observation s ∨ (∃ n, o.toUpdate = .observations n s) →
      InstrumentAdapter.handle update { a with instrument := i } o =
        if a.labelFilter.accepts l then do
          let r ← update i o.toUpdate
          return ({ a with instrument := r.1 }, r.2)
        else return ({ a with instrument := i }, 0) := by
    intro i o hl hu
    unfold InstrumentAdapter.handle
    dsimp only
    rw [hl]
    have : a.modifyUpdate.modify l o.toUpdate = o.toUpdate := by
      rcases hu with hu | ⟨m, hu⟩
      · rw [hu]; exact ha.1 s
      · rw [hu]; exact ha.2.1 m s
    rw [this]
  have he : a = { a with instrument := a.instrument } := rfl
  rw [he]
  by_cases hl : a.labelFilter.accepts l = true
  · refine Joins.map (fun i => { a with instrument := i }) hi (fun i => ?_) (fun i => ?_) (fun i => ?_)
    · rw [hm i (.observed l n s) rfl (.inr ⟨_, rfl⟩), if_pos hl]; rfl
    · rw [hm i (.observedOne l s) rfl (.inl rfl), if_pos hl]; rfl
    · rw [hm i (.observed l (n + 1) s) rfl (.inr ⟨_, rfl⟩), if_pos hl]; rfl
  · refine Joins.map (fun i => { a with instrument := i }) (Joins.nothing a.instrument) (fun i => ?_) (fun i => ?_) (fun i => ?_)
    · rw [hm i (.observed l n s) rfl (.inr ⟨_, rfl⟩), if_neg hl]; rfl
    · rw [hm i (.observedOne l s) rfl (.inl rfl), if_neg hl]; rfl
    · rw [hm i (.observed l (n + 1) s) rfl (.inr ⟨_, rfl⟩), if_neg hl]; rfl

theorem GaugeAdapter.joins {a : GaugeAdapter L} {l : L} (ha : a.reaction.Counts l) (n : Nat) (s : Int) :
    Joins e (GaugeAdapter.handle · (.observed l n s)) (GaugeAdapter.handle · (.observedOne l s))
      (GaugeAdapter.handle · (.observed l (n + 1) s)) a := by
  intro k k₁ k₁' k₂ k₂' z y c c' h1 h2
  dsimp only at h1 h2 ⊢
  rw [a.handle_other ha (.inl ⟨_, _, rfl⟩)] at h1
  cases h1
  rw [a.handle_other ha (.inr ⟨_, rfl⟩)] at h2
  cases h2
  rw [a.handle_other ha (.inl ⟨_, _, rfl⟩)]
  exact ⟨rfl, _, rfl⟩

omit [DecidableEq L] in
theorem joins_slot {A : Type} {f g h : A → M (A × Nat)} {x : Option A} (hx : ∀ a, x = some a → Joins e f g h a) :
    Joins e (handleSlot f) (handleSlot g) (handleSlot h) x := by
  cases x with
  | none =>
    intro k k₁ k₁' k₂ k₂' z y c c' h1 h2
    cases h1; cases h2
    exact ⟨rfl, _, rfl⟩
  | some a => exact Joins.map some (hx a rfl) (fun _ => rfl) (fun _ => rfl) (fun _ => rfl)

theorem PanelHead.joins (hf : Frozen e t) {x : PanelHead L} {l : L} (hx : AllCount l x.reactions) {n : Nat} (h0 : 0 < n)
    (hn : ((n + 1 : Nat) : Int) ≤ i64Max) (s : Int) :
    Joins e (PanelHead.handle · (.observed l n s)) (PanelHead.handle · (.observedOne l s)) (PanelHead.handle · (.observed l (n + 1) s)) x := by
  have j1 := joins_slot (x := x.counter) (fun a ha => InstrumentAdapter.joins (update := IsInstrument.update) (a := a)
    (hx _ (by simp [PanelHead.reactions, ha])) (a.instrument.joins (e := e) n s))
  have j2 := joins_slot (x := x.gauge) (fun a ha => GaugeAdapter.joins (e := e) (a := a) (hx _ (by simp [PanelHead.reactions, ha])) n s)
  have j3 := joins_slot (x := x.meter) (fun a ha => InstrumentAdapter.joins (update := IsInstrument.update) (a := a)
    (hx _ (by simp [PanelHead.reactions, ha])) (a.instrument.joins hf h0 hn s))
  have j4 := joins_slot (x := x.histogram) (fun a ha => InstrumentAdapter.joins (update := IsInstrument.update) (a := a)
    (hx _ (by simp [PanelHead.reactions, ha])) (a.instrument.joins hf n s))
  intro k k₁ k₁' k₂ k₂' z y c c' h1 h2
  obtain ⟨⟨a₁, c₁⟩, _, f1, h1⟩ := M.bind_eq_some.1 h1
  obtain ⟨⟨a₂, c₂⟩, _, f2, h1⟩ := M.bind_eq_some.1 h1
  obtain ⟨⟨a₃, c₃⟩, _, f3, h1⟩ := M.bind_eq_some.1 h1
  obtain ⟨⟨a₄, c₄⟩, _, f4, h1⟩ := M.bind_eq_some.1 h1
  cases h1
  obtain ⟨⟨b₁, d₁⟩, _, g1, h2⟩ := M.bind_eq_some.1 h2
  obtain ⟨⟨b₂, d₂⟩, _, g2, h2⟩ := M.bind_eq_some.1 h2
  obtain ⟨⟨b₃, d₃⟩, _, g3, h2⟩ := M.bind_eq_some.1 h2
  obtain ⟨⟨b₄, d₄⟩, _, g4, h2⟩ := M.bind_eq_some.1 h2
  cases h2
  obtain ⟨rfl, k3, e1⟩ := j1 k _ _ _ _ _ _ _ _ f1 g1
  obtain ⟨rfl, k4, e2⟩ := j2 k3 _ _ _ _ _ _ _ _ f2 g2
  obtain ⟨rfl, k5, e3⟩ := j3 k4 _ _ _ _ _ _ _ _ f3 g3
  obtain ⟨rfl, k6, e4⟩ := j4 k5 _ _ _ _ _ _ _ _ f4 g4
  refine ⟨rfl, k6, ?_⟩
  show x.handle (.observed l (n + 1) s) e k = _
  unfold PanelHead.handle
  exact M.bind_eq_some.2 ⟨_, _, e1, M.bind_eq_some.2 ⟨_, _, e2, M.bind_eq_some.2 ⟨_, _, e3, M.bind_eq_some.2 ⟨_, _, e4, rfl⟩⟩⟩⟩

variable [Custom σ L]

section Tree
variable (hc : CustomCounts σ L) (hf : Frozen e t) (he : ∃ e₀ m, e = Env.at e₀ m) (l : L) {n : Nat} (h0 : 0 < n)
  (hn : ((n + 1 : Nat) : Int) ≤ i64Max) (s : Int)
include hc hf he h0 hn

mutual
theorem Panel.joins : ∀ p : Panel σ L, AllCount l p.reactions →
    Joins e (Panel.handle (.observed l n s)) (Panel.handle (.observedOne l s)) (Panel.handle (.observed l (n + 1) s)) p
  | .mk h ps hs ss, hp => by
    simp only [Panel.reactions, AllCount, List.mem_append] at hp
    have j1 := PanelHead.joins hf (x := h) (l := l) (fun m hm => hp m (.inl (.inl hm))) h0 hn s
    have j2 := joins_handlePanels ps (fun m hm => hp m (.inl (.inr hm)))
    have j3 := joins_handleHandlers hs (fun m hm => hp m (.inr hm))
    have hk : (h.labelFilter.accepts l = true) ∨ ¬ (h.labelFilter.accepts l = true) := Classical.em _
    intro k k₁ k₁' k₂ k₂' z y c c' h1 h2
    unfold Panel.handle at h1 ⊢
    rcases hk with hk | hk
    · rw [if_pos (show h.labelFilter.accepts (Observation.observed l n s).label = true from hk)] at h1
      rw [if_pos (show h.labelFilter.accepts (Observation.observed l (n + 1) s).label = true from hk)]
      obtain ⟨⟨a₁, c₁⟩, k3, f1, h1⟩ := M.bind_eq_some.1 h1
      obtain ⟨⟨a₂, c₂⟩, _, f2, h1⟩ := M.bind_eq_some.1 h1
      obtain ⟨⟨a₃, c₃⟩, _, f3, h1⟩ := M.bind_eq_some.1 h1
      cases h1
      have hfilter : a₁.labelFilter = h.labelFilter := by
        have h3 := f1
        simp only [PanelHead.handle, M.bind_eq_some, M.run_pure, Option.some.injEq, Prod.mk.injEq] at h3
        obtain ⟨_, _, _, _, _, _, _, _, _, _, _, _, ⟨rfl, _⟩, _⟩ := h3
        rfl
      unfold Panel.handle at h2
      rw [if_pos (show a₁.labelFilter.accepts (Observation.observedOne l s).label = true from by rw [hfilter]; exact hk)] at h2
      obtain ⟨⟨b₁, d₁⟩, _, g1, h2⟩ := M.bind_eq_some.1 h2
      obtain ⟨⟨b₂, d₂⟩, _, g2, h2⟩ := M.bind_eq_some.1 h2
      obtain ⟨⟨b₃, d₃⟩, _, g3, h2⟩ := M.bind_eq_some.1 h2
      cases h2
      obtain ⟨rfl, k3, e1⟩ := j1 k _ _ _ _ _ _ _ _ f1 g1
      obtain ⟨rfl, k4, e2⟩ := j2 k3 _ _ _ _ _ _ _ _ f2 g2
      obtain ⟨rfl, k5, e3⟩ := j3 k4 _ _ _ _ _ _ _ _ f3 g3
      refine ⟨rfl, k5, ?_⟩
      exact M.bind_eq_some.2 ⟨_, _, e1, M.bind_eq_some.2 ⟨_, _, e2, M.bind_eq_some.2 ⟨_, _, e3, rfl⟩⟩⟩
    · rw [if_neg (show ¬ h.labelFilter.accepts (Observation.observed l n s).label = true from hk)] at h1
      rw [if_neg (show ¬ h.labelFilter.accepts (Observation.observed l (n + 1) s).label = true from hk)]
      cases h1
      unfold Panel.handle at h2
      rw [if_neg (show ¬ h.labelFilter.accepts (Observation.observedOne l s).label = true from hk)] at h2
      cases h2
      exact ⟨rfl, _, rfl⟩
theorem joins_handlePanels : ∀ ps : List (Panel σ L), AllCount l (reactionsOfPanels ps) →
    Joins e (handlePanels (.observed l n s)) (handlePanels (.observedOne l s)) (handlePanels (.observed l (n + 1) s)) ps
  | [], _ => by
    intro k k₁ k₁' k₂ k₂' z y c c' h1 h2
    cases h1; cases h2
    exact ⟨rfl, _, rfl⟩
  | p :: ps, hp => by
    simp only [reactionsOfPanels, AllCount, List.mem_append] at hp
    have j1 := Panel.joins p (fun m hm => hp m (.inl hm))
    have j2 := joins_handlePanels ps (fun m hm => hp m (.inr hm))
    intro k k₁ k₁' k₂ k₂' z y c c' h1 h2
    unfold handlePanels at h1 ⊢
    obtain ⟨⟨a₁, c₁⟩, k3, f1, h1⟩ := M.bind_eq_some.1 h1
    obtain ⟨⟨a₂, c₂⟩, _, f2, h1⟩ := M.bind_eq_some.1 h1
    cases h1
    unfold handlePanels at h2
    obtain ⟨⟨b₁, d₁⟩, _, g1, h2⟩ := M.bind_eq_some.1 h2
    obtain ⟨⟨b₂, d₂⟩, _, g2, h2⟩ := M.bind_eq_some.1 h2
    cases h2
    obtain ⟨rfl, k3, e1⟩ := j1 k _ _ _ _ _ _ _ _ f1 g1
    obtain ⟨rfl, k4, e2⟩ := j2 k3 _ _ _ _ _ _ _ _ f2 g2
    refine ⟨rfl, k4, ?_⟩
    exact M.bind_eq_some.2 ⟨_, _, e1, M.bind_eq_some.2 ⟨_, _, e2, rfl⟩⟩
theorem Handler.joins : ∀ h : Handler σ L, AllCount l h.reactions →
    Joins e (Handler.handle (.observed l n s)) (Handler.handle (.observedOne l s)) (Handler.handle (.observed l (n + 1) s)) h
  | .instrument a, hp => by
    refine Joins.map Handler.instrument (InstrumentAdapter.joins (update := Instrument.update L) (hp _ (by simp [Handler.reactions]))
      (Instrument.joins hc hf he a.instrument h0 hn s)) ?_ ?_ ?_ <;> · intro x; rw [Handler.handle]
  | .gauge a, hp => by
    refine Joins.map Handler.gauge (GaugeAdapter.joins (hp _ (by simp [Handler.reactions])) n s) ?_ ?_ ?_ <;>
      · intro x; rw [Handler.handle]
  | .panel p, hp => by
    refine Joins.map Handler.panel (Panel.joins p hp) ?_ ?_ ?_ <;> · intro x; rw [Handler.handle]
  | .cockpit h ps hs ss, hp => by
    simp only [Handler.reactions, AllCount, List.mem_append] at hp
    have j1 := joins_handleHandlers hs (fun m hm => hp m (.inr hm))
    have j2 := joins_handlePanels ps (fun m hm => hp m (.inl hm))
    intro k k₁ k₁' k₂ k₂' z y c c' h1 h2
    unfold Handler.handle at h1 ⊢
    rw [M.run_bind_some (M.run_now _ _), hf.clock] at h1 ⊢
    obtain ⟨⟨a₁, c₁⟩, k3, f1, h1⟩ := M.bind_eq_some.1 h1
    obtain ⟨⟨a₂, c₂⟩, _, f2, h1⟩ := M.bind_eq_some.1 h1
    cases h1
    unfold Handler.handle at h2
    rw [M.run_bind_some (M.run_now _ _), hf.clock] at h2
    obtain ⟨⟨b₁, d₁⟩, _, g1, h2⟩ := M.bind_eq_some.1 h2
    obtain ⟨⟨b₂, d₂⟩, _, g2, h2⟩ := M.bind_eq_some.1 h2
    cases h2
    obtain ⟨rfl, k3, e1⟩ := j1 (k + 1) _ _ _ _ _ _ _ _ f1 g1
    obtain ⟨rfl, k4, e2⟩ := j2 k3 _ _ _ _ _ _ _ _ f2 g2
    refine ⟨rfl, k4, ?_⟩
    exact M.bind_eq_some.2 ⟨_, _, e1, M.bind_eq_some.2 ⟨_, _, e2, rfl⟩⟩
  | .custom x, _ => by
    obtain ⟨e₀, m, rfl⟩ := he
    refine Joins.map Handler.custom (hc.handle x e₀ m l n s h0) ?_ ?_ ?_ <;> · intro x; rw [Handler.handle]
theorem joins_handleHandlers : ∀ hs : List (Handler σ L), AllCount l (reactionsOfHandlers hs) →
    Joins e (handleHandlers (.observed l n s)) (handleHandlers (.observedOne l s)) (handleHandlers (.observed l (n + 1) s)) hs
  | [], _ => by
    intro k k₁ k₁' k₂ k₂' z y c c' h1 h2
    cases h1; cases h2
    exact ⟨rfl, _, rfl⟩
  | p :: ps, hp => by
    simp only [reactionsOfHandlers, AllCount, List.mem_append] at hp
    have j1 := Handler.joins p (fun m hm => hp m (.inl hm))
    have j2 := joins_handleHandlers ps (fun m hm => hp m (.inr hm))
    intro k k₁ k₁' k₂ k₂' z y c c' h1 h2
    unfold handleHandlers at h1 ⊢
    obtain ⟨⟨a₁, c₁⟩, k3, f1, h1⟩ := M.bind_eq_some.1 h1
    obtain ⟨⟨a₂, c₂⟩, _, f2, h1⟩ := M.bind_eq_some.1 h1
    cases h1
    unfold handleHandlers at h2
    obtain ⟨⟨b₁, d₁⟩, _, g1, h2⟩ := M.bind_eq_some.1 h2
    obtain ⟨⟨b₂, d₂⟩, _, g2, h2⟩ := M.bind_eq_some.1 h2
    cases h2
    obtain ⟨rfl, k3, e1⟩ := j1 k _ _ _ _ _ _ _ _ f1 g1
    obtain ⟨rfl, k4, e2⟩ := j2 k3 _ _ _ _ _ _ _ _ f2 g2
    refine ⟨rfl, k4, ?_⟩
    exact M.bind_eq_some.2 ⟨_, _, e1, M.bind_eq_some.2 ⟨_, _, e2, rfl⟩⟩
end

theorem Cockpit.joins (x : Cockpit σ L) (hp : AllCount l x.reactions) :
    Joins e (Cockpit.handle · (.observed l n s)) (Cockpit.handle · (.observedOne l s)) (Cockpit.handle · (.observed l (n + 1) s)) x := by
  simp only [Cockpit.reactions, AllCount, List.mem_append] at hp
  have j1 := joins_handleHandlers hc hf he l h0 hn s x.handlers (fun m hm => hp m (.inr hm))
  have j2 := joins_handlePanels hc hf he l h0 hn s x.panels (fun m hm => hp m (.inl hm))
  intro k k₁ k₁' k₂ k₂' z y c c' h1 h2
  dsimp only at h1 h2 ⊢
  unfold Cockpit.handle at h1 ⊢
  rw [M.run_bind_some (M.run_now _ _), hf.clock] at h1 ⊢
  obtain ⟨⟨a₁, c₁⟩, k3, f1, h1⟩ := M.bind_eq_some.1 h1
  obtain ⟨⟨a₂, c₂⟩, _, f2, h1⟩ := M.bind_eq_some.1 h1
  cases h1
  unfold Cockpit.handle at h2
  rw [M.run_bind_some (M.run_now _ _), hf.clock] at h2
  obtain ⟨⟨b₁, d₁⟩, _, g1, h2⟩ := M.bind_eq_some.1 h2
  obtain ⟨⟨b₂, d₂⟩, _, g2, h2⟩ := M.bind_eq_some.1 h2
  cases h2
  obtain ⟨rfl, k3, e1⟩ := j1 (k + 1) _ _ _ _ _ _ _ _ f1 g1
  obtain ⟨rfl, k4, e2⟩ := j2 k3 _ _ _ _ _ _ _ _ f2 g2
  refine ⟨rfl, k4, ?_⟩
  exact M.bind_eq_some.2 ⟨_, _, e1, M.bind_eq_some.2 ⟨_, _, e2, rfl⟩⟩

theorem joins_handleCockpits : ∀ cs : List (Cockpit σ L), AllCount l (cs.flatMap Cockpit.reactions) →
    Joins e (handleCockpits (.observed l n s)) (handleCockpits (.observedOne l s)) (handleCockpits (.observed l (n + 1) s)) cs
  | [], _ => by
    intro k k₁ k₁' k₂ k₂' z y c c' h1 h2
    cases h1; cases h2
    exact ⟨rfl, _, rfl⟩
  | p :: ps, hp => by
    simp only [List.flatMap_cons, AllCount, List.mem_append] at hp
    have j1 := Cockpit.joins hc hf he l h0 hn s p (fun m hm => hp m (.inl hm))
    have j2 := joins_handleCockpits ps (fun m hm => hp m (.inr hm))
    intro k k₁ k₁' k₂ k₂' z y c c' h1 h2
    unfold handleCockpits at h1 ⊢
    obtain ⟨⟨a₁, c₁⟩, k3, f1, h1⟩ := M.bind_eq_some.1 h1
    obtain ⟨⟨a₂, c₂⟩, _, f2, h1⟩ := M.bind_eq_some.1 h1
    cases h1
    unfold handleCockpits at h2
    obtain ⟨⟨b₁, d₁⟩, _, g1, h2⟩ := M.bind_eq_some.1 h2
    obtain ⟨⟨b₂, d₂⟩, _, g2, h2⟩ := M.bind_eq_some.1 h2
    cases h2
    obtain ⟨rfl, k3, e1⟩ := j1 k _ _ _ _ _ _ _ _ f1 g1
    obtain ⟨rfl, k4, e2⟩ := j2 k3 _ _ _ _ _ _ _ _ f2 g2
    refine ⟨rfl, k4, ?_⟩
    exact M.bind_eq_some.2 ⟨_, _, e1, M.bind_eq_some.2 ⟨_, _, e2, rfl⟩⟩
end Tree
end More

/-! ## What adapters do stays the same -/

theorem PanelHead.reactions_bare (h : PanelHead L) : h.bare.reactions = h.reactions := by
  unfold PanelHead.reactions PanelHead.bare
  cases h.counter <;> cases h.gauge <;> cases h.meter <;> cases h.histogram <;> rfl

mutual
theorem Panel.reactions_bare : ∀ p : Panel σ L, p.bare.reactions = p.reactions
  | .mk h ps hs ss => by
    simp only [Panel.bare, Panel.reactions, h.reactions_bare, reactionsOfPanels_bare ps, reactionsOfHandlers_bare hs]
theorem reactionsOfPanels_bare : ∀ ps : List (Panel σ L), reactionsOfPanels (barePanels ps) = reactionsOfPanels ps
  | [] => rfl
  | p :: ps => by simp only [barePanels, reactionsOfPanels, Panel.reactions_bare p, reactionsOfPanels_bare ps]
theorem Handler.reactions_bare : ∀ h : Handler σ L, h.bare.reactions = h.reactions
  | .instrument _ => rfl
  | .gauge _ => rfl
  | .panel p => by simp only [Handler.bare, Handler.reactions, Panel.reactions_bare p]
  | .cockpit h ps hs ss => by simp only [Handler.bare, Handler.reactions, reactionsOfPanels_bare ps, reactionsOfHandlers_bare hs]
  | .custom _ => rfl
theorem reactionsOfHandlers_bare : ∀ hs : List (Handler σ L), reactionsOfHandlers (bareHandlers hs) = reactionsOfHandlers hs
  | [] => rfl
  | h :: hs => by simp only [bareHandlers, reactionsOfHandlers, Handler.reactions_bare h, reactionsOfHandlers_bare hs]
end

theorem Cockpit.reactions_bare (c : Cockpit σ L) : c.bare.reactions = c.reactions := by
  simp only [Cockpit.bare, Cockpit.reactions, reactionsOfPanels_bare, reactionsOfHandlers_bare]

theorem reactionsOfPanels_eq (ps : List (Panel σ L)) : reactionsOfPanels ps = ps.flatMap Panel.reactions := by
  induction ps with
  | nil => rfl
  | cons p ps ih => rw [reactionsOfPanels, ih]; rfl

theorem reactionsOfHandlers_eq (hs : List (Handler σ L)) : reactionsOfHandlers hs = hs.flatMap Handler.reactions := by
  induction hs with
  | nil => rfl
  | cons p ps ih => rw [reactionsOfHandlers, ih]; rfl

theorem cockpitReactions_bare (cs : List (Cockpit σ L)) : (cs.map Cockpit.bare).flatMap Cockpit.reactions = cs.flatMap Cockpit.reactions := by
  induction cs with
  | nil => rfl
  | cons c cs ih => rw [List.map_cons, List.flatMap_cons, List.flatMap_cons, ih, c.reactions_bare]

theorem ProcessorState.reactions_addCockpit (s : ProcessorState σ L) (c : Cockpit σ L) {m : Reaction L}
    (h : m ∈ (s.addCockpit c).reactions) : m ∈ s.reactions ∨ m ∈ c.reactions := by
  have : (s.addCockpit c).reactions = s.reactions ∨
      (s.addCockpit c).reactions = s.cockpits.flatMap Cockpit.reactions ++ c.reactions ++ reactionsOfHandlers s.handlers := by
    unfold ProcessorState.addCockpit
    split
    · split
      · exact .inl rfl
      · exact .inr (by simp [ProcessorState.reactions])
    · exact .inr (by simp [ProcessorState.reactions])
  rcases this with this | this
  · exact .inl (this ▸ h)
  · rw [this] at h
    simp only [ProcessorState.reactions, List.mem_append] at h ⊢
    tauto

theorem ProcessorState.reactions_addHandler (s : ProcessorState σ L) (x : Handler σ L) {m : Reaction L}
    (h : m ∈ (s.addHandler x).reactions) : m ∈ s.reactions ∨ m ∈ x.reactions := by
  simp only [ProcessorState.reactions, ProcessorState.addHandler, reactionsOfHandlers_eq, List.flatMap_append, List.mem_append,
    List.flatMap_cons, List.flatMap_nil, List.append_nil] at h ⊢
  tauto

theorem modifyFirst_reactions {name : String} {f : Cockpit σ L → Cockpit σ L} {l : List (Reaction L)} {m : Reaction L}
    (hf : ∀ c, m ∈ (f c).reactions → m ∈ c.reactions ∨ m ∈ l) : ∀ cs : List (Cockpit σ L),
    m ∈ (ProcessorState.modifyFirst name f cs).flatMap Cockpit.reactions → m ∈ cs.flatMap Cockpit.reactions ∨ m ∈ l
  | [], h => .inl h
  | c :: cs, h => by
    unfold ProcessorState.modifyFirst at h
    split at h
    · simp only [List.flatMap_cons, List.mem_append] at h ⊢
      rcases h with h | h
      · rcases hf c h with h | h
        · exact .inl (.inl h)
        · exact .inr h
      · exact .inl (.inr h)
    · simp only [List.flatMap_cons, List.mem_append] at h ⊢
      rcases h with h | h
      · exact .inl (.inl h)
      · rcases modifyFirst_reactions hf cs h with h | h
        · exact .inl (.inr h)
        · exact .inr h

theorem ProcessorState.reactions_set (s : ProcessorState σ L) (c : Call σ L) {m : Reaction L} (h : m ∈ (s.set c).reactions) :
    m ∈ s.reactions ∨ m ∈ c.reactions := by
  cases c with
  | addCockpit c => exact s.reactions_addCockpit c h
  | addHandler x => exact s.reactions_addHandler x h
  | _ => exact .inl h

variable [DecidableEq L] [Custom σ L]

theorem ProcessorState.reactions_receive {s s' : ProcessorState σ L} {dec : Decider} {t t' : Tally} {x : Message σ L} {e : Env} {k k' : Nat}
    (hr : s.receive dec t x e k = some ((s', t'), k')) {m : Reaction L} (h : m ∈ s'.reactions) : m ∈ s.reactions ∨ m ∈ x.reactions := by
  cases x with
  | observation o =>
    unfold ProcessorState.receive at hr
    dsimp only at hr
    split at hr
    · obtain ⟨⟨cs, n⟩, k₁, h1, hr⟩ := M.bind_eq_some.1 hr
      obtain ⟨⟨hs, n'⟩, k₂, h2, hr⟩ := M.bind_eq_some.1 hr
      cases hr
      have h3 : bareHandlers hs = bareHandlers s.handlers := keepsBare_handleHandlers o s.handlers _ _ _ _ h2
      have h4 : cs.map Cockpit.bare = s.cockpits.map Cockpit.bare := by
        have : M.Post (handleCockpits o s.cockpits) fun r => r.1.map Cockpit.bare = s.cockpits.map Cockpit.bare := by
          generalize s.cockpits = l
          induction l with
          | nil => exact .pure rfl
          | cons c l ih => exact .bind _ (c.keepsBare_handle o) fun _ h₁ => .bind _ ih fun _ h₂ => .pure (by simp [h₁, h₂])
        exact this _ _ _ _ h1
      left
      simp only [ProcessorState.reactions, List.mem_append] at h ⊢
      rw [← reactionsOfHandlers_bare, h3, reactionsOfHandlers_bare, ← cockpitReactions_bare, h4, cockpitReactions_bare] at h
      exact h
    · cases hr; exact .inl h
  | addCockpit c => cases hr; exact s.reactions_addCockpit c h
  | addHandler c => cases hr; exact s.reactions_addHandler c h
  | removeCockpit n =>
    cases hr
    left
    simp only [ProcessorState.reactions, ProcessorState.removeCockpit, List.mem_append, List.mem_flatMap, List.mem_filter] at h ⊢
    rcases h with ⟨c, ⟨hc, _⟩, h⟩ | h
    · exact .inl ⟨c, hc, h⟩
    · exact .inr h
  | addPanelToCockpit n p =>
    cases hr
    simp only [ProcessorState.reactions, List.mem_append] at h ⊢
    have hf : ∀ c : Cockpit σ L, m ∈ (c.addPanel p).reactions → m ∈ c.reactions ∨ m ∈ p.reactions := by
      intro c hc
      unfold Cockpit.addPanel at hc
      split at hc
      · split at hc
        · exact .inl hc
        · simp only [Cockpit.reactions, reactionsOfPanels_eq, List.flatMap_append, List.mem_append, List.flatMap_cons, List.flatMap_nil,
            List.append_nil] at hc ⊢
          tauto
      · simp only [Cockpit.reactions, reactionsOfPanels_eq, List.flatMap_append, List.mem_append, List.flatMap_cons, List.flatMap_nil,
          List.append_nil] at hc ⊢
        tauto
    rcases h with h | h
    · rcases modifyFirst_reactions hf s.cockpits h with h | h
      · exact .inl (.inl h)
      · exact .inr h
    · exact .inl (.inr h)
  | removePanelFromCockpit n q =>
    cases hr
    simp only [ProcessorState.reactions, List.mem_append] at h ⊢
    left
    have hf : ∀ c : Cockpit σ L, m ∈ (c.removePanel q).reactions → m ∈ c.reactions ∨ m ∈ ([] : List (Reaction L)) := by
      intro c hc
      left
      simp only [Cockpit.removePanel, Cockpit.reactions, reactionsOfPanels_eq, List.mem_append, List.mem_flatMap, List.mem_filter] at hc ⊢
      rcases hc with ⟨p, ⟨hp, _⟩, hc⟩ | hc
      · exact .inl ⟨p, hp, hc⟩
      · exact .inr hc
    rcases h with h | h
    · rcases modifyFirst_reactions hf s.cockpits h with h | h
      · exact .inl h
      · cases h
    · exact .inr h

/-! ## Happenings -/

theorem Happening.play_reactions {e : Env} {x y : ProcessorState σ L × Tally} {h : Happening σ L} (hp : h.play e x = some y)
    {m : Reaction L} (hm : m ∈ y.1.reactions) : m ∈ x.1.reactions ∨ m ∈ h.reactions := by
  cases h with
  | set c =>
    cases hp
    exact x.1.reactions_set c hm
  | message n strategy msg =>
    unfold Happening.play at hp
    dsimp only at hp
    obtain ⟨⟨z, k⟩, hz, rfl⟩ := Option.map_eq_some_iff.1 hp
    obtain ⟨dec, k₁, h1, hz⟩ := M.bind_eq_some.1 hz
    obtain ⟨⟨s, t⟩, k₂, h2, hz⟩ := M.bind_eq_some.1 hz
    cases hz
    exact ProcessorState.reactions_receive h2 hm

/-! ## Processors -/

variable {e : Env} {t : Int}

/-- The decision to drop them is the same. -/
theorem Decider.same_decision (dec : Decider) (l : L) (n : Nat) (s : Int) :
    dec.shouldBeProcessed (.observed l n s) = dec.shouldBeProcessed (.observedOne l s) := by cases dec <;> rfl

/-- The state after handling does not depend on the numbers so far. -/
theorem receive_observation (s : ProcessorState σ L) (dec : Decider) (u : Tally) (o : Observation L) (k : Nat) :
    s.receive dec u (.observation o) e k = if dec.shouldBeProcessed o then
      (do
        let (cockpits, n) ← handleCockpits o s.cockpits
        let (handlers, m) ← handleHandlers o s.handlers
        return (({ s with cockpits, handlers } : ProcessorState σ L),
          { u with processed := u.processed + 1, updated := u.updated + n + m }) : M (ProcessorState σ L × Tally)) e k
    else some ((s, { u with dropped := u.dropped + 1 }), k) := by
  unfold ProcessorState.receive
  dsimp only
  split
  · rfl
  · rfl

/-- One observation is handled. -/
def ProcessorState.handleAll (o : Observation L) (s : ProcessorState σ L) : M (ProcessorState σ L × Nat) := do
  let (cockpits, n) ← handleCockpits o s.cockpits
  let (handlers, m) ← handleHandlers o s.handlers
  return ({ s with cockpits, handlers }, n + m)

theorem ProcessorState.joins (hc : CustomCounts σ L) (hf : Frozen e t) (he : ∃ e₀ m, e = Env.at e₀ m) {l : L} {n : Nat} (h0 : 0 < n)
    (hn : ((n + 1 : Nat) : Int) ≤ i64Max) (s : Int) {x : ProcessorState σ L} (hp : AllCount l x.reactions) :
    Joins e (ProcessorState.handleAll (.observed l n s)) (ProcessorState.handleAll (.observedOne l s))
      (ProcessorState.handleAll (.observed l (n + 1) s)) x := by
  simp only [ProcessorState.reactions, AllCount, List.mem_append] at hp
  have j1 := joins_handleCockpits hc hf he l h0 hn s x.cockpits (fun m hm => hp m (.inl hm))
  have j2 := joins_handleHandlers hc hf he l h0 hn s x.handlers (fun m hm => hp m (.inr hm))
  intro k k₁ k₁' k₂ k₂' z y c c' h1 h2
  unfold ProcessorState.handleAll at h1 ⊢
  obtain ⟨⟨a₁, c₁⟩, k3, f1, h1⟩ := M.bind_eq_some.1 h1
  obtain ⟨⟨a₂, c₂⟩, _, f2, h1⟩ := M.bind_eq_some.1 h1
  cases h1
  unfold ProcessorState.handleAll at h2
  obtain ⟨⟨b₁, d₁⟩, _, g1, h2⟩ := M.bind_eq_some.1 h2
  obtain ⟨⟨b₂, d₂⟩, _, g2, h2⟩ := M.bind_eq_some.1 h2
  cases h2
  obtain ⟨rfl, k3, e1⟩ := j1 k _ _ _ _ _ _ _ _ f1 g1
  obtain ⟨rfl, k4, e2⟩ := j2 k3 _ _ _ _ _ _ _ _ f2 g2
  exact ⟨rfl, k4, M.bind_eq_some.2 ⟨_, _, e1, M.bind_eq_some.2 ⟨_, _, e2, rfl⟩⟩⟩

theorem ProcessorState.handleAll_one (hc : CustomCounts σ L) {l : L} (s : Int) {x : ProcessorState σ L} (hp : AllCount l x.reactions) :
    x.handleAll (.observed l 1 s) = x.handleAll (.observedOne l s) := by
  simp only [ProcessorState.reactions, AllCount, List.mem_append] at hp
  unfold ProcessorState.handleAll
  rw [handleCockpits_one hc l s _ (fun m hm => hp m (.inl hm)), handleHandlers_one hc l s _ (fun m hm => hp m (.inr hm))]

theorem receive_handleAll (s : ProcessorState σ L) (dec : Decider) (u : Tally) (o : Observation L) (k : Nat) :
    s.receive dec u (.observation o) e k = if dec.shouldBeProcessed o then
      (s.handleAll o e k).map fun r => ((r.1.1, { u with processed := u.processed + 1, updated := u.updated + r.1.2 }), r.2)
    else some ((s, { u with dropped := u.dropped + 1 }), k) := by
  rw [receive_observation]
  split
  · unfold ProcessorState.handleAll
    rw [M.run_bind, M.run_bind]
    cases handleCockpits o s.cockpits e k with
    | none => rfl
    | some r =>
      obtain ⟨⟨cs, n⟩, k₁⟩ := r
      dsimp only
      rw [M.run_bind, M.run_bind]
      cases handleHandlers o s.handlers e k₁ with
      | none => rfl
      | some r =>
        show some _ = some (_, _)
        dsimp only
        rw [← Nat.add_assoc]
  · rfl

theorem handleAll_active (s : ProcessorState σ L) (a : Int) (o : Observation L) (k : Nat) :
    (s.activeAt a).handleAll o e k = (s.handleAll o e k).map fun r => ((r.1.1.activeAt a, r.1.2), r.2) := by
  unfold ProcessorState.handleAll
  rw [M.run_bind, M.run_bind]
  have hcs : (s.activeAt a).cockpits = s.cockpits := rfl
  have hhs : (s.activeAt a).handlers = s.handlers := rfl
  rw [hcs, hhs]
  cases handleCockpits o s.cockpits e k with
  | none => rfl
  | some r =>
    obtain ⟨⟨cs, n⟩, k₁⟩ := r
    dsimp only
    rw [M.run_bind, M.run_bind]
    cases handleHandlers o s.handlers e k₁ with
    | none => rfl
    | some r => rfl

theorem play_handleAll {m k : Nat} {strategy : Strategy} {dec : Decider} (hd : strategy.decider (e.at m) 0 = some (dec, k))
    (o : Observation L) (s : ProcessorState σ L) (u : Tally) :
    (Happening.message m strategy (.observation o)).play e (s, u) = if dec.shouldBeProcessed o then
      (s.handleAll o (e.at m) k).map fun r =>
        (r.1.1.activeAt (e.clock m), { u with processed := u.processed + 1, updated := u.updated + r.1.2 })
    else some (s.activeAt (e.clock m), { u with dropped := u.dropped + 1 }) := by
  unfold Happening.play
  dsimp only
  rw [M.run_bind, hd]
  dsimp only
  rw [M.run_bind, receive_handleAll]
  by_cases hk : dec.shouldBeProcessed o = true
  · rw [if_pos hk, if_pos hk]
    cases s.handleAll o (e.at m) k with
    | none => rfl
    | some r => rfl
  · rw [if_neg hk, if_neg hk]
    rfl

/-- Occurrences one by one, at the same moment. -/
theorem plays_oneByOne (hc : CustomCounts σ L) {m k : Nat} {strategy : Strategy} {dec : Decider} (hd : strategy.decider (e.at m) 0 = some (dec, k))
    {l : L} {s : Int} {x : ProcessorState σ L} {u : Tally} (hx : AllCount l x.reactions) : ∀ (n : Nat), 0 < n → (n : Int) ≤ i64Max →
    ∀ {y : ProcessorState σ L} {v : Tally},
    (List.replicate n (Happening.message m strategy (.observation (.observedOne l s)))).foldlM (Happening.play e) (x, u) = some (y, v) →
    if dec.shouldBeProcessed (.observedOne l s) then ∃ z c k', x.handleAll (.observed l n s) (e.at m) k = some ((z, c), k') ∧
      y = z.activeAt (e.clock m) ∧ v = { u with processed := u.processed + n, updated := u.updated + n * c }
    else y = x.activeAt (e.clock m) ∧ v = { u with dropped := u.dropped + n } := by
  intro n h0 hn y v h
  induction n, h0 using Nat.le_induction generalizing y v with
  | base =>
    simp only [List.replicate_one, List.foldlM_cons, List.foldlM_nil, bind_pure] at h
    rw [play_handleAll hd] at h
    split
    · rename_i hk
      rw [if_pos hk] at h
      cases hh : x.handleAll (.observedOne l s) (e.at m) k with
      | none => rw [hh] at h; cases h
      | some r =>
        rw [hh] at h
        cases h
        refine ⟨r.1.1, r.1.2, r.2, ?_, rfl, ?_⟩
        · rw [ProcessorState.handleAll_one hc s hx]; exact hh
        · rw [Nat.one_mul]
    · rename_i hk
      rw [if_neg hk] at h
      cases h
      exact ⟨rfl, rfl⟩
  | succ n h0 ih =>
    rw [List.replicate_succ', List.foldlM_append] at h
    obtain ⟨⟨y₁, v₁⟩, h1, h2⟩ := Option.bind_eq_some_iff.1 h
    have ih := ih (by omega) h1
    simp only [List.foldlM_cons, List.foldlM_nil, bind_pure] at h2
    rw [play_handleAll hd] at h2
    split
    · rename_i hk
      rw [if_pos hk] at ih h2
      obtain ⟨z, c, k₁, h3, rfl, rfl⟩ := ih
      rw [handleAll_active] at h2
      cases hh : z.handleAll (.observedOne l s) (e.at m) k with
      | none => rw [hh] at h2; cases h2
      | some r =>
        obtain ⟨⟨w, c'⟩, k₂⟩ := r
        rw [hh] at h2
        cases h2
        obtain ⟨rfl, k', h4⟩ := ProcessorState.joins hc (e.at_frozen m) ⟨e, m, rfl⟩ (by omega) hn s hx k _ _ _ _ _ _ _ _ h3 hh
        refine ⟨w, _, k', h4, rfl, ?_⟩
        simp only [Tally.mk.injEq, true_and]
        refine ⟨by omega, ?_⟩
        rw [Nat.add_assoc, ← Nat.succ_mul]
    · rename_i hk
      rw [if_neg hk] at ih h2
      obtain ⟨rfl, rfl⟩ := ih
      cases h2
      exact ⟨rfl, by rw [Nat.add_assoc]⟩

/-- Each number is at most the other. -/
def Tally.AtMost (a b : Tally) : Prop := a.processed ≤ b.processed ∧ a.dropped ≤ b.dropped ∧ a.updated ≤ b.updated

/-- Occurrences together, at the same moment. -/
theorem play_together (hc : CustomCounts σ L) {m : Nat} {strategy : Strategy} {l : L} {s : Int} {n : Nat} (h0 : 0 < n)
    (hn : (n : Int) ≤ i64Max) {x y : ProcessorState σ L} {u v : Tally} (hx : AllCount l x.reactions)
    (h : (List.replicate n (Happening.message m strategy (.observation (.observedOne l s)))).foldlM (Happening.play e) (x, u) = some (y, v)) :
    ∃ d : Tally, v = ⟨u.processed + n * d.processed, u.dropped + n * d.dropped, u.updated + n * d.updated⟩ ∧
      ∀ w : Tally, (Happening.message m strategy (.observation (.observed l n s))).play e (x, w) = some (y, w.plus d) := by
  cases hd : strategy.decider (e.at m) 0 with
  | none =>
    obtain ⟨n, rfl⟩ : ∃ n', n = n' + 1 := ⟨n - 1, by omega⟩
    rw [List.replicate_succ, List.foldlM_cons] at h
    obtain ⟨_, h1, _⟩ := Option.bind_eq_some_iff.1 h
    unfold Happening.play at h1
    dsimp only at h1
    rw [M.run_bind, hd] at h1
    cases h1
  | some r =>
    obtain ⟨dec, k⟩ := r
    have := plays_oneByOne hc hd hx n h0 hn h
    split at this
    · rename_i hk
      obtain ⟨z, c, k', h3, rfl, rfl⟩ := this
      refine ⟨⟨1, 0, c⟩, by simp, fun w => ?_⟩
      rw [play_handleAll hd, Decider.same_decision, if_pos hk, h3]
      rfl
    · rename_i hk
      obtain ⟨rfl, rfl⟩ := this
      refine ⟨⟨0, 1, 0⟩, by simp, fun w => ?_⟩
      rw [play_handleAll hd, Decider.same_decision, if_neg hk]
      rfl

/-- The numbers so far do not matter for the state. -/
theorem play_tally {h : Happening σ L} {x : ProcessorState σ L} {u : Tally} {y : ProcessorState σ L × Tally} (hp : h.play e (x, u) = some y) :
    ∃ d : Tally, y.2 = u.plus d ∧ ∀ w : Tally, h.play e (x, w) = some (y.1, w.plus d) := by
  cases h with
  | set c =>
    cases hp
    exact ⟨{}, rfl, fun w => rfl⟩
  | message m strategy msg =>
    unfold Happening.play at hp ⊢
    dsimp only at hp ⊢
    rw [M.run_bind] at hp
    simp only [M.run_bind]
    cases hd : strategy.decider (e.at m) 0 with
    | none => rw [hd] at hp; cases hp
    | some r =>
      obtain ⟨dec, k⟩ := r
      rw [hd] at hp
      dsimp only at hp ⊢
      have hr : ∀ w : Tally, x.receive dec w msg (e.at m) k =
          (x.receive dec {} msg (e.at m) k).map fun r => ((r.1.1.activeAt x.activity.lastActivity, w.plus r.1.2), r.2) := fun w =>
        receive_active dec x x.activity.lastActivity {} w msg (e.at m) k
      rw [M.run_bind, hr] at hp
      cases hh : x.receive dec {} msg (e.at m) k with
      | none => rw [hh] at hp; cases hp
      | some r =>
        rw [hh] at hp
        cases hp
        refine ⟨r.1.2, rfl, fun w => ?_⟩
        rw [hr w, hh]
        rfl

theorem OneByOne.plays (hc : CustomCounts σ L) {counted : L → Prop} {hs hs' : List (Happening σ L)} (ho : OneByOne counted hs hs')
    {x y : ProcessorState σ L} {u w v : Tally} (hx : ∀ l, counted l → AllCount l x.reactions)
    (hm : ∀ h ∈ hs, ∀ l, counted l → AllCount l h.reactions) (h : hs'.foldlM (Happening.play e) (x, u) = some (y, v)) (hu : w.AtMost u) :
    ∃ v', hs.foldlM (Happening.play e) (x, w) = some (y, v') ∧ v'.AtMost v := by
  induction ho generalizing x u w with
  | nil =>
    cases h
    exact ⟨w, rfl, hu⟩
  | @same a hs hs' _ ih =>
    rw [List.foldlM_cons] at h
    obtain ⟨z, h1, h2⟩ := Option.bind_eq_some_iff.1 h
    obtain ⟨d, h3, h4⟩ := play_tally h1
    rw [List.foldlM_cons, h4 w]
    obtain ⟨z, t⟩ := z
    dsimp only at h3
    subst h3
    refine ih (fun l hl r hr => ?_) (fun b hb => hm b (List.mem_cons_of_mem _ hb)) h2 ?_
    · rcases Happening.play_reactions h1 hr with hr | hr
      · exact hx l hl r hr
      · exact hm a List.mem_cons_self l hl r hr
    · simp only [Tally.AtMost, Tally.plus] at hu ⊢
      omega
  | @observed m strategy l n t hs hs' hl h0 hn _ ih =>
    rw [List.foldlM_append] at h
    obtain ⟨⟨z, t'⟩, h1, h2⟩ := Option.bind_eq_some_iff.1 h
    obtain ⟨d, rfl, h4⟩ := play_together hc h0 hn (hx l hl) h1
    rw [List.foldlM_cons, h4 w]
    refine ih (fun l hl r hr => ?_) (fun b hb => hm b (List.mem_cons_of_mem _ hb)) h2 ?_
    · rcases Happening.play_reactions (h4 w) hr with hr | hr
      · exact hx l hl r hr
      · exact hm _ List.mem_cons_self l hl r hr
    · have h5 := Nat.le_mul_of_pos_left d.processed h0
      have h6 := Nat.le_mul_of_pos_left d.dropped h0
      have h7 := Nat.le_mul_of_pos_left d.updated h0
      simp only [Tally.AtMost, Tally.plus] at hu ⊢
      omega

omit [DecidableEq L] [Custom σ L] in
theorem OneByOne.ringsOk {counted : L → Prop} {hs hs' : List (Happening σ L)} (ho : OneByOne counted hs hs')
    (h : ∀ a ∈ hs, RingsOk a.instruments) : ∀ a ∈ hs', RingsOk a.instruments := by
  induction ho with
  | nil => exact nofun
  | same x _ ih =>
    intro b hb
    rcases List.mem_cons.1 hb with rfl | hb
    · exact h _ List.mem_cons_self
    · exact ih (fun c hc => h c (List.mem_cons_of_mem _ hc)) b hb
  | observed m strategy l n t _ _ _ _ ih =>
    intro b hb
    rcases List.mem_append.1 hb with hb | hb
    · rw [List.eq_of_mem_replicate hb]; exact nofun
    · exact ih (fun c hc => h c (List.mem_cons_of_mem _ hc)) b hb

end Metrix
