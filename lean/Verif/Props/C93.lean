import Verif.Proof.Order
import Verif.Props.C81
import Verif.Props.C92

/-!
# C93: the order of simultaneous observations does not matter

`Reordered` (in `Verif.Spec.Order`): the same happened, only that observations which were handled at the same moment were handled in another
order. `Holder.ForgetsOrder` says which instruments do not tell the order.
-/

namespace Metrix
variable {σ L : Type} [DecidableEq L] [Custom σ L]

omit [DecidableEq L] in
/-- An instrument. Two updates at the same moment have the same effect, and report the same, in either order. -/
theorem C93_instrument (ha : CustomAgrees σ L) (hc : CustomForgets σ L) {i i₁ i₂ j₁ j₂ : Instrument σ}
    (hi : Holder.ForgetsOrder { instrument := i.bare }) {e : Env} {m k₁ k₁' k₂ k₂' k₃ k₃' k₄ k₄' c c' d d' : Nat} {u u' : Update}
    (h1 : i.update L u (e.at m) k₁ = some ((i₁, c), k₁')) (h2 : i₁.update L u' (e.at m) k₂ = some ((i₂, c'), k₂'))
    (h3 : i.update L u' (e.at m) k₃ = some ((j₁, d'), k₃')) (h4 : j₁.update L u (e.at m) k₄ = some ((j₂, d), k₄')) :
    i₂ = j₂ ∧ c = d ∧ c' = d' := by
  have go := fun {i : Instrument σ} {u : Update} {k r} h => (Instrument.agr_update ha i u).same (e := e.at m) (k := k) (r := r) h
  obtain ⟨z, p, q⟩ := Instrument.swaps hc (e := e.unchecked.at m) rfl (e.unchecked.at_frozen m) ⟨e.unchecked, m, rfl⟩ (b := false) hi rfl u u'
    _ _ _ _ _ _ _ _ (go h1) (go h2)
  obtain ⟨_, p⟩ := p k₃
  obtain ⟨_, q⟩ := q k₄
  have h5 := (go h3).symm.trans p
  cases h5
  have h6 := (go h4).symm.trans q
  cases h6
  exact ⟨rfl, rfl, rfl⟩

/-- What happened in both cases has the same effect. -/
theorem reordered_same (ha : CustomAgrees σ L) (hc : CustomStill σ L) (hn : CustomForgets σ L) {e : Env} {hs₁ hs₂ : List (Happening σ L)}
    (hob : Reordered hs₁ hs₂) {x : ProcessorState σ L × Tally} (hx : ∀ h ∈ x.1.holders, h.ForgetsOrder)
    (hm : ∀ a ∈ hs₁, ∀ h ∈ a.holders, h.ForgetsOrder) {y y' : ProcessorState σ L × Tally} (h : hs₁.foldlM (Happening.play e) x = some y)
    (h' : hs₂.foldlM (Happening.play e) x = some y') : y = y' := by
  have := hob.plays hc hn (e := e.unchecked) rfl hx hm (plays_unchecked ha h)
  rw [plays_unchecked ha h'] at this
  exact (Option.some.inj this).symm

/-- Two processors that are alike at the beginning. The same happens to them, except that simultaneous observations come in another order. All
later snapshots show the same. -/
theorem C93_snapshots (ha : CustomAgrees σ L) (hc : CustomStill σ L) (hn : CustomForgets σ L) {e : Env} (mono : e.Mono)
    {p₁ p₂ p₁' p₂' : Processor σ L} {log₁ log₂ : List (Nat × Call σ L × Reply)} {hs₁ hs₂ : List (Happening σ L)}
    (h₁ : Happened e p₁ log₁ hs₁ p₁') (h₂ : Happened e p₂ log₂ hs₂ p₂') (hob : Reordered hs₁ hs₂) (hsame : p₁.state = p₂.state)
    (hf : ∀ h ∈ p₁.state.holders, h.ForgetsOrder) (hfs : ∀ a ∈ hs₁, ∀ h ∈ a.holders, h.ForgetsOrder)
    (hr : RingsOk p₁.state.instruments) (hrs : ∀ a ∈ hs₁, RingsOk a.instruments) (ho₁ : MomentsInOrder log₁) (ho₂ : MomentsInOrder log₂)
    {n : Nat} (hn₁ : ∀ c ∈ log₁, c.1 ≤ n) (hn₂ : ∀ c ∈ log₂, c.1 ≤ n) (into : Snapshot) (d : Bool) :
    (p₁'.putSnapshot into d (e.at n) 0).map (·.1.2) = (p₂'.putSnapshot into d (e.at n) 0).map (·.1.2) := by
  obtain ⟨y, h3, h4⟩ := h₁.plays hc mono p₁.state {} n ho₁ hrs (moments_le hn₁) fun m _ => ProcessorState.alike_refl hr
  obtain ⟨y', h5, h6⟩ := h₂.plays hc mono p₁.state {} n ho₂ (fun a h => hrs a (hob.perm.mem_iff.2 h)) (moments_le hn₂) fun m _ => by
    rw [← hsame]; exact ProcessorState.alike_refl hr
  obtain ⟨rfl, _⟩ := Prod.mk.inj (reordered_same ha hc hn hob hf hfs h3 h5)
  rw [h4.shown hc, h6.shown hc]

/-- In total, the runs report the same. -/
theorem C93_totals (ha : CustomAgrees σ L) (hc : CustomStill σ L) (hn : CustomForgets σ L) {e : Env} (mono : e.Mono)
    {p₁ p₂ p₁' p₂' : Processor σ L} {log₁ log₂ : List (Nat × Call σ L × Reply)} {hs₁ hs₂ : List (Happening σ L)}
    (h₁ : Happened e p₁ log₁ hs₁ p₁') (h₂ : Happened e p₂ log₂ hs₂ p₂') (hob : Reordered hs₁ hs₂) (hsame : p₁.state = p₂.state)
    (hf : ∀ h ∈ p₁.state.holders, h.ForgetsOrder) (hfs : ∀ a ∈ hs₁, ∀ h ∈ a.holders, h.ForgetsOrder)
    (hr : RingsOk p₁.state.instruments) (hrs : ∀ a ∈ hs₁, RingsOk a.instruments) (ho₁ : MomentsInOrder log₁) (ho₂ : MomentsInOrder log₂) :
    (totalsOf log₁).processed = (totalsOf log₂).processed ∧ (totalsOf log₁).dropped = (totalsOf log₂).dropped ∧
      (totalsOf log₁).updated = (totalsOf log₂).updated := by
  obtain ⟨n₁, hn₁⟩ := exists_bound (log₁.map (·.1))
  obtain ⟨n₂, hn₂⟩ := exists_bound (log₂.map (·.1))
  obtain ⟨y, h3, _⟩ := h₁.plays hc mono p₁.state ⟨0, 0, 0⟩ n₁ ho₁ hrs hn₁ fun m _ => ProcessorState.alike_refl hr
  obtain ⟨y', h5, _⟩ := h₂.plays hc mono p₁.state ⟨0, 0, 0⟩ n₂ ho₂ (fun a h => hrs a (hob.perm.mem_iff.2 h)) hn₂ fun m _ => by
    rw [← hsame]; exact ProcessorState.alike_refl hr
  have h6 := congrArg Prod.snd (reordered_same ha hc hn hob hf hfs h3 h5)
  simp only [Tally.plus, Nat.zero_add] at h6
  rw [Tally.mk.injEq] at h6
  exact h6

omit [DecidableEq L] [Custom σ L] in
/-- Any order of the observations handled at a moment, such as any interleaving of what several threads sent, is a reordering. -/
theorem C93_any_order {os os' : List (Strategy × Observation L)} (h : os.Perm os') (m : Nat) (hs : List (Happening σ L)) :
    Reordered (os.map (fun o => .message m o.1 (.observation o.2)) ++ hs) (os'.map (fun o => .message m o.1 (.observation o.2)) ++ hs) := by
  induction h with
  | nil => exact .refl hs
  | cons x _ ih => exact .same _ ih
  | swap x y l => exact .swap m y.1 x.1 y.2 x.2 _
  | trans _ _ ih ih' => exact ih.trans ih'

/-! ## Where the order is visible -/

/-- Finding: the last one decides what a flag shows. -/
theorem C93_finding_flag (f : Flag) (b : Bool) (t t' : Int) :
    ((f.update (.withValue (.bool b) t)).1.update (.withValue (.bool (!b)) t')).1.state = some (!b) ∧
    ((f.update (.withValue (.bool (!b)) t')).1.update (.withValue (.bool b) t)).1.state = some b := ⟨rfl, rfl⟩

/-- Finding: a gauge that is changed by the observations, but also tracks its highest value, tells the order: in one order its value went up to
one, in the other order it never did. -/
theorem C93_finding_peak :
    let g : Gauge := { name := "g", value := some 0, tracking := some ⟨List.replicate 3 default, 0, 2⟩ }
    let after (d d' : Int) := ((do
      let r ← g.update (.withValue (.changedBy d) 0)
      r.1.update (.withValue (.changedBy d') 0) : M (Gauge × Nat)) (ticking.at 3) 0).map fun r =>
        (r.1.1.value, r.1.1.tracking.map fun b => (b.buckets.map (·.max)).foldl max 0)
    after 1 (-1) = some (some 0, some 1) ∧ after (-1) 1 = some (some 0, some 0) := by
  decide +kernel

/-! ## Example -/

theorem emptyForgets : CustomForgets Empty Nat := ⟨nofun, nofun⟩

/-- A counter, a staircase timer and a gauge. Messages wait. -/
def mixed : List (Message Empty Nat) :=
  [.observation (.observed 1 3 7), .observation (.observedOne 2 8), .observation (.observedOneValue 1 (.changedBy 5) 9)]

def mixedUp : List (Message Empty Nat) :=
  [.observation (.observedOneValue 1 (.changedBy 5) 9), .observation (.observed 1 3 7), .observation (.observedOne 2 8)]

/-- The same observations in another order. -/
example : ∃ p₁ log₁ hs₁ p₂ log₂ hs₂, log₁ ≠ [] ∧ hs₁ ≠ hs₂ ∧ Happened ticking (reportedProcessor mixed) log₁ hs₁ p₁ ∧
    Happened ticking (reportedProcessor mixedUp) log₂ hs₂ p₂ ∧ hs₁.length = 3 ∧
    (totalsOf log₁).updated = (totalsOf log₂).updated ∧ ∀ n into d, 3 ≤ n →
      (p₁.putSnapshot into d (ticking.at n) 0).map (·.1.2) = (p₂.putSnapshot into d (ticking.at n) 0).map (·.1.2) := by
  obtain ⟨p₁, log₁, hl₁, h₁⟩ := reported_happens mixed (by decide) (by decide +kernel)
  obtain ⟨p₂, log₂, hl₂, h₂⟩ := reported_happens mixedUp (by decide) (by decide +kernel)
  have hob : Reordered (mixed.map (Happening.message 3 .processAll)) (mixedUp.map (Happening.message 3 .processAll)) := by
    have := C93_any_order (σ := Empty) (os := [(.processAll, .observed 1 3 7), (.processAll, .observedOne 2 8), (.processAll, .observedOneValue 1 (.changedBy 5) 9)])
      (os' := [(.processAll, .observedOneValue 1 (.changedBy 5) 9), (.processAll, .observed 1 3 7), (.processAll, .observedOne 2 8)])
      (((List.Perm.swap ..).cons _).trans (.swap ..)) 3 []
    exact this
  have order : ∀ {log : List (Nat × Call Empty Nat × Reply)} {o : Call Empty Nat}, log.map (fun c => (c.1, c.2.1)) = [(3, o)] →
      MomentsInOrder log ∧ (∀ c ∈ log, c.1 = 3) ∧ log ≠ [] := by
    intro log o h
    obtain ⟨c, rfl⟩ := List.length_eq_one_iff.1 ((List.length_map _).symm.trans (congrArg List.length h))
    simp only [List.map_cons, List.map_nil, List.cons.injEq, Prod.mk.injEq] at h
    exact ⟨by simp [MomentsInOrder], by simp [h.1.1], by simp⟩
  have hf : ∀ h ∈ (reportedProcessor mixed).state.holders, h.ForgetsOrder := by
    intro h hh
    have : (reportedProcessor mixed).state.holders = [⟨.counter { name := "c" }, false⟩, ⟨.staircaseTimer { name := "s" }, false⟩,
      ⟨.gauge { name := "g" }, true⟩] := rfl
    rw [this] at hh
    simp only [List.mem_cons, List.not_mem_nil, or_false] at hh
    rcases hh with rfl | rfl | rfl
    · trivial
    · trivial
    · exact ⟨rfl, rfl⟩
  have hfs : ∀ a ∈ mixed.map (Happening.message (σ := Empty) 3 .processAll), ∀ h ∈ a.holders, h.ForgetsOrder := by
    simp [mixed, Happening.holders, Message.holders]
  have rings : RingsOk (reportedProcessor mixed).state.instruments := by
    intro g r hg hr
    have : (reportedProcessor mixed).state.instruments = [.counter { name := "c" }, .staircaseTimer { name := "s" },
      .gauge { name := "g", value := some 0 }] := rfl
    rw [this] at hg
    simp only [List.mem_cons, reduceCtorEq, Instrument.gauge.injEq, List.not_mem_nil, or_false, false_or] at hg
    subst hg
    cases hr
  have ringss : ∀ a ∈ mixed.map (Happening.message (σ := Empty) 3 .processAll), RingsOk a.instruments := by
    simp [mixed, Happening.instruments, Message.instruments, RingsOk]
  refine ⟨p₁, log₁, _, p₂, log₂, _, (order hl₁).2.2, ?_, h₁, h₂, rfl, ?_, fun n into d hn => ?_⟩
  · intro h
    simp [mixed, mixedUp] at h
  · exact (C93_totals emptyAgrees emptyStill emptyForgets ticking_mono h₁ h₂ hob rfl hf hfs rings ringss (order hl₁).1 (order hl₂).1).2.2
  · exact C93_snapshots emptyAgrees emptyStill emptyForgets ticking_mono h₁ h₂ hob rfl hf hfs rings ringss (order hl₁).1 (order hl₂).1
      (fun c hc => by rw [(order hl₁).2.1 c hc]; exact hn) (fun c hc => by rw [(order hl₂).2.1 c hc]; exact hn) into d

end Metrix
