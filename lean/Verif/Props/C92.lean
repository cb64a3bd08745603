import Verif.Proof.Batch
import Verif.Props.C91

/-!
# C92: reporting occurrences together or one by one makes no difference

`OneByOne` (in `Verif.Spec.Batch`): the same happened, only that occurrences which were reported together in the first case, `observed l n t`,
were reported one by one in the second case, `n` times `observedOne l t`.
-/

namespace Metrix
variable {σ L : Type} [DecidableEq L] [Custom σ L]

omit [DecidableEq L] in
/-- An instrument. One occurrence is one occurrence, and one more after `n > 0` occurrences at the same moment is the same as `n + 1` at once. -/
theorem C92_instrument (hc : CustomCounts σ L) (i : Instrument σ) (t : Int) :
    i.update L (.observations 1 t) = i.update L (.observation t) ∧
    ∀ (e : Env) (m n : Nat), 0 < n → ((n + 1 : Nat) : Int) ≤ i64Max → ∀ {i₁ i₂ : Instrument σ} {c₁ c₂ k₁ k₁' k₂ k₂' : Nat},
      i.update L (.observations n t) (e.at m) k₁ = some ((i₁, c₁), k₁') → i₁.update L (.observation t) (e.at m) k₂ = some ((i₂, c₂), k₂') →
      ∀ k, ∃ k', i.update L (.observations (n + 1) t) (e.at m) k = some ((i₂, c₂), k') := by
  refine ⟨i.update_one hc t, fun e m n h0 hn i₁ i₂ c₁ c₂ k₁ k₁' k₂ k₂' h1 h2 k => ?_⟩
  obtain ⟨rfl, k', h⟩ := Instrument.joins hc (e.at_frozen m) ⟨e, m, rfl⟩ i h0 hn t k _ _ _ _ _ _ _ _ h1 h2
  exact ⟨k', h⟩

/-- Two processors that are alike at the beginning. The same happens to them, except that occurrences are reported together to one of them and
one by one to the other. All later snapshots show the same. -/
theorem C92_snapshots (hc : CustomStill σ L) (hn : CustomCounts σ L) {e : Env} (mono : e.Mono) {p₁ p₂ p₁' p₂' : Processor σ L}
    {log₁ log₂ : List (Nat × Call σ L × Reply)} {hs₁ hs₂ : List (Happening σ L)} (h₁ : Happened e p₁ log₁ hs₁ p₁')
    (h₂ : Happened e p₂ log₂ hs₂ p₂') {counted : L → Prop} (hob : OneByOne counted hs₁ hs₂) (hsame : p₁.state = p₂.state)
    (ha : ∀ l, counted l → ∀ a ∈ p₁.state.reactions, a.Counts l) (has : ∀ h ∈ hs₁, ∀ l, counted l → ∀ a ∈ h.reactions, a.Counts l)
    (hr : RingsOk p₁.state.instruments) (hrs : ∀ a ∈ hs₁, RingsOk a.instruments) (ho₁ : MomentsInOrder log₁) (ho₂ : MomentsInOrder log₂)
    {n : Nat} (hn₁ : ∀ c ∈ log₁, c.1 ≤ n) (hn₂ : ∀ c ∈ log₂, c.1 ≤ n) (into : Snapshot) (d : Bool) :
    (p₁'.putSnapshot into d (e.at n) 0).map (·.1.2) = (p₂'.putSnapshot into d (e.at n) 0).map (·.1.2) := by
  obtain ⟨y, h3, h4⟩ := h₁.plays hc mono p₁.state {} n ho₁ hrs (moments_le hn₁) fun m _ => ProcessorState.alike_refl hr
  obtain ⟨y', h5, h6⟩ := h₂.plays hc mono p₁.state {} n ho₂ (hob.ringsOk hrs) (moments_le hn₂) fun m _ => by
    rw [← hsame]; exact ProcessorState.alike_refl hr
  obtain ⟨v, h7, _⟩ := hob.plays hn ha has h5 (w := {}) ⟨Nat.le_refl _, Nat.le_refl _, Nat.le_refl _⟩
  rw [h3] at h7
  obtain ⟨rfl, _⟩ := Prod.mk.inj (Option.some.inj h7)
  rw [h4.shown hc, h6.shown hc]

/-- One by one, the runs report at least as much in total. -/
theorem C92_totals (hc : CustomStill σ L) (hn : CustomCounts σ L) {e : Env} (mono : e.Mono) {p₁ p₂ p₁' p₂' : Processor σ L}
    {log₁ log₂ : List (Nat × Call σ L × Reply)} {hs₁ hs₂ : List (Happening σ L)} (h₁ : Happened e p₁ log₁ hs₁ p₁')
    (h₂ : Happened e p₂ log₂ hs₂ p₂') {counted : L → Prop} (hob : OneByOne counted hs₁ hs₂) (hsame : p₁.state = p₂.state)
    (ha : ∀ l, counted l → ∀ a ∈ p₁.state.reactions, a.Counts l) (has : ∀ h ∈ hs₁, ∀ l, counted l → ∀ a ∈ h.reactions, a.Counts l)
    (hr : RingsOk p₁.state.instruments) (hrs : ∀ a ∈ hs₁, RingsOk a.instruments) (ho₁ : MomentsInOrder log₁) (ho₂ : MomentsInOrder log₂) :
    (totalsOf log₁).processed ≤ (totalsOf log₂).processed ∧ (totalsOf log₁).dropped ≤ (totalsOf log₂).dropped ∧
      (totalsOf log₁).updated ≤ (totalsOf log₂).updated := by
  obtain ⟨n₁, hn₁⟩ := exists_bound (log₁.map (·.1))
  obtain ⟨n₂, hn₂⟩ := exists_bound (log₂.map (·.1))
  obtain ⟨y, h3, _⟩ := h₁.plays hc mono p₁.state ⟨0, 0, 0⟩ n₁ ho₁ hrs hn₁ fun m _ => ProcessorState.alike_refl hr
  obtain ⟨y', h5, _⟩ := h₂.plays hc mono p₁.state ⟨0, 0, 0⟩ n₂ ho₂ (hob.ringsOk hrs) hn₂ fun m _ => by
    rw [← hsame]; exact ProcessorState.alike_refl hr
  obtain ⟨v, h7, h8⟩ := hob.plays hn ha has h5 (w := ⟨0, 0, 0⟩) ⟨Nat.le_refl _, Nat.le_refl _, Nat.le_refl _⟩
  rw [h3] at h7
  obtain ⟨_, rfl⟩ := Prod.mk.inj (Option.some.inj h7)
  simp only [Tally.AtMost, Tally.plus, Nat.zero_add] at h8
  exact h8

omit [DecidableEq L] [Custom σ L] in
/-- Without a modifier everything reaches the instrument as it is. -/
theorem counts_none [DecidableEq L] (l : L) : Reaction.Counts l { modifier := (none : UpdateModifier L) } :=
  ⟨fun _ => rfl, fun _ _ => rfl, nofun⟩

/-! ## Where it does make a difference -/

/-- Finding: `observed` with the number zero is still taken for an occurrence by a staircase timer, which switches on. -/
theorem C92_finding_zero (i : StaircaseTimer) (t : Int) (e : Env) (k : Nat) {r : (StaircaseTimer × Nat) × Nat}
    (h : i.update (.observations 0 t) e k = some r) : ∃ u, r.1.1.stayOnUntil = some u := by
  obtain ⟨_, k', h1, h2⟩ := M.bind_eq_some.1 h
  obtain ⟨u, k'', h3, h4⟩ := M.bind_eq_some.1 h2
  cases h4
  exact ⟨_, rfl⟩

/-- A gauge that is incremented with every observation. -/
def steppingGauge : GaugeAdapter Nat := { gauge := { name := "g", value := some 0 }, strategy := .incDecOnLabels .acceptAll .acceptNone }

/-- Finding: a gauge that is incremented at some labels counts reports, not occurrences. Two at once increment it by one, two one by one by
two. -/
theorem C92_finding_increment (e : Env) :
    ((steppingGauge.handle (.observed 1 2 0)) e 0).map (·.1.1.gauge.value) = some (some 1) ∧
    ((do
      let a ← steppingGauge.handle (.observedOne 1 0)
      a.1.handle (.observedOne 1 0) : M (GaugeAdapter Nat × Nat)) e 0).map (·.1.1.gauge.value) = some (some 2) := by
  constructor <;> cases e.profile <;> rfl

/-! ## Example -/

theorem emptyCounts : CustomCounts Empty Nat := ⟨nofun, nofun, nofun, nofun⟩

/-- A counter, a staircase timer and a gauge. Messages wait. -/
def reportedProcessor (ms : List (Message Empty Nat)) : Processor Empty Nat where
  state := { name := some "p", activity := ⟨0, some 3000000000, true⟩
             handlers := [.instrument ⟨.acceptAll, .counter { name := "c" }, none⟩,
               .instrument ⟨.acceptAll, .staircaseTimer { name := "s" }, none⟩,
               .gauge { gauge := { name := "g", value := some 0 }, strategy := .incDecOnLabels (.one 2) .acceptNone }] }
  receiver := { chan := { Channel.fresh (some 10) true [{ todo := [] }] with queue := ms.map (0, ·) } }

def together : List (Message Empty Nat) :=
  [.observation (.observed 1 3 7), .observation (.observedOne 2 8)]

def separately : List (Message Empty Nat) :=
  [.observation (.observedOne 1 7), .observation (.observedOne 1 7), .observation (.observedOne 1 7), .observation (.observedOne 2 8)]

/-- What happens in one run. -/
theorem reported_happens (ms : List (Message Empty Nat)) (hms : ms.length ≤ 6)
    (h : (callsAt Processor.call ticking (reportedProcessor ms) [(3, .process 6 .processAll)]).isSome) :
    ∃ p' log, log.map (fun c => (c.1, c.2.1)) = [(3, .process 6 .processAll)] ∧
      Happened ticking (reportedProcessor ms) log (ms.map (.message 3 .processAll)) p' := by
  obtain ⟨p', log, h1, h2⟩ := callsAt_spec h
  refine ⟨p', log, h2, ?_⟩
  have calls : ∀ d ∈ log, d.1 = 3 ∧ ((∃ max, d.2.1 = .process max .processAll) ∨ d.2.1.IsSnapshot) := by
    intro d hd
    have : (d.1, d.2.1) ∈ log.map (fun c => (c.1, c.2.1)) := List.mem_map_of_mem hd
    rw [h2] at this
    simp only [List.mem_cons, Prod.mk.injEq, List.not_mem_nil, or_false] at this
    exact ⟨this.1, .inl ⟨6, this.2⟩⟩
  have sum : (log.map (·.2.1.polls)).sum = 6 := by
    have : log.map (·.2.1.polls) = (log.map (fun c => (c.1, c.2.1))).map (·.2.polls) := by rw [List.map_map]; rfl
    rw [this, h2]; rfl
  have := happened_quiet (p := reportedProcessor ms) rfl nofun calls h1
  rw [sum] at this
  have queue : (reportedProcessor ms).receiver.chan.queue.map (·.2) = ms := by
    show (ms.map (0, ·)).map (·.2) = ms
    rw [List.map_map]; exact List.map_id _
  rw [queue, List.take_of_length_le hms] at this
  exact this

/-- Three occurrences at once or one by one, and another that increments the gauge. -/
example : ∃ p₁ log₁ hs₁ p₂ log₂ hs₂, log₁ ≠ [] ∧ Happened ticking (reportedProcessor together) log₁ hs₁ p₁ ∧
    Happened ticking (reportedProcessor separately) log₂ hs₂ p₂ ∧ hs₁.length = 2 ∧ hs₂.length = 4 ∧
    (totalsOf log₁).updated ≤ (totalsOf log₂).updated ∧ ∀ n into d, 3 ≤ n →
      (p₁.putSnapshot into d (ticking.at n) 0).map (·.1.2) = (p₂.putSnapshot into d (ticking.at n) 0).map (·.1.2) := by
  obtain ⟨p₁, log₁, hl₁, h₁⟩ := reported_happens together (by decide) (by decide +kernel)
  obtain ⟨p₂, log₂, hl₂, h₂⟩ := reported_happens separately (by decide) (by decide +kernel)
  have hob : OneByOne (· = 1) (together.map (Happening.message 3 .processAll)) (separately.map (Happening.message 3 .processAll)) :=
    .observed 3 .processAll 1 3 7 rfl (by decide) (by decide) (.same _ .nil)
  have order : ∀ {log : List (Nat × Call Empty Nat × Reply)} {o : Call Empty Nat}, log.map (fun c => (c.1, c.2.1)) = [(3, o)] →
      MomentsInOrder log ∧ (∀ c ∈ log, c.1 = 3) ∧ log ≠ [] := by
    intro log o h
    obtain ⟨c, rfl⟩ := List.length_eq_one_iff.1 ((List.length_map _).symm.trans (congrArg List.length h))
    simp only [List.map_cons, List.map_nil, List.cons.injEq, Prod.mk.injEq] at h
    exact ⟨by simp [MomentsInOrder], by simp [h.1.1], by simp⟩
  have ha : ∀ l, l = 1 → ∀ a ∈ (reportedProcessor together).state.reactions, a.Counts l := by
    rintro _ rfl a ha
    have : (reportedProcessor together).state.reactions = [⟨none, []⟩, ⟨none, []⟩, ⟨none, [.one 2, .acceptNone]⟩] := rfl
    rw [this] at ha
    simp only [List.mem_cons, List.not_mem_nil, or_false] at ha
    rcases ha with rfl | rfl | rfl
    · exact counts_none 1
    · exact counts_none 1
    · refine ⟨fun _ => rfl, fun _ _ => rfl, fun f hf => ?_⟩
      simp only [List.mem_cons, List.not_mem_nil, or_false] at hf
      rcases hf with rfl | rfl <;> rfl
  have has : ∀ h ∈ together.map (Happening.message (σ := Empty) 3 .processAll), ∀ l : Nat, l = 1 → ∀ a ∈ h.reactions, a.Counts l := by
    simp [together, Happening.reactions, Message.reactions]
  have rings : RingsOk (reportedProcessor together).state.instruments := by
    intro g r hg hr
    have : (reportedProcessor together).state.instruments = [.counter { name := "c" }, .staircaseTimer { name := "s" },
      .gauge { name := "g", value := some 0 }] := rfl
    rw [this] at hg
    simp only [List.mem_cons, reduceCtorEq, Instrument.gauge.injEq, List.not_mem_nil, or_false, false_or] at hg
    subst hg
    cases hr
  have ringss : ∀ a ∈ together.map (Happening.message (σ := Empty) 3 .processAll), RingsOk a.instruments := by
    simp [together, Happening.instruments, Message.instruments, RingsOk]
  refine ⟨p₁, log₁, _, p₂, log₂, _, (order hl₁).2.2, h₁, h₂, rfl, rfl, ?_, fun n into d hn => ?_⟩
  · exact (C92_totals emptyStill emptyCounts ticking_mono h₁ h₂ hob rfl ha has rings ringss (order hl₁).1 (order hl₂).1).2.2
  · exact C92_snapshots emptyStill emptyCounts ticking_mono h₁ h₂ hob rfl ha has rings ringss (order hl₁).1 (order hl₂).1
      (fun c hc => by rw [(order hl₁).2.1 c hc]; exact hn) (fun c hc => by rw [(order hl₂).2.1 c hc]; exact hn) into d

end Metrix
