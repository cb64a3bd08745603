import Verif.Proof.Switches
import Verif.Props.C25

/-! # C36: occurrence and non-occurrence indicators are complementary time windows -/

namespace Metrix

/-- An occurrence indicator shows whether the last update is less than its window ago (`invert` negates). Before the
first update `happenedLast` plays the role of the last update. -/
theorem C36_occurrence {e : Env} {k k' k'' : Nat} {i i' : OccurrenceIndicator} {log : List (Event Update)}
    (h : History e k i log k' i') {into s : Snapshot} {d : Bool}
    (hput : i'.putSnapshot into d e k' = some (s, k'')) :
    ∃ front on rest, s = front ++ (i.name, .boolean (on ^^ i.invert)) :: rest ∧ (i.showInverted = none → rest = []) ∧
      (on = true ↔ e.clock k' < (lastTap e.clock log).getD i.happenedLast + i.ifHappenedWithin) := by
  have hi := OccurrenceIndicator.history h
  obtain ⟨b, k₁, hb, hs⟩ := putTimedSwitch_eq_some hput
  obtain ⟨hb, _⟩ := OccurrenceIndicator.state_eq_some hb
  subst hi
  simp only at hb hs
  refine ⟨putPostfixedDescriptives i.descr i.name into d,
    decide (e.clock k' < (lastTap e.clock log).getD i.happenedLast + i.ifHappenedWithin), ?_⟩
  cases hsi : i.showInverted with
  | none => rw [hsi] at hs; exact ⟨[], by rw [hs.2, hb], by simp, by simp⟩
  | some alt =>
    rw [hsi] at hs; obtain ⟨b', _, hs⟩ := hs
    exact ⟨_, by rw [hs, hb], by simp, by simp⟩

/-- A new occurrence indicator is off from the start: a monotone clock never shows `on` before the first update. -/
theorem C36_occurrence_new {e : Env} (mono : e.Mono) {name : String} {k₀ k₁ : Nat} {i : OccurrenceIndicator}
    (h : OccurrenceIndicator.new name e k₀ = some (i, k₁)) (j : Nat) (hj : k₀ ≤ j) :
    ¬ e.clock j < i.happenedLast + i.ifHappenedWithin := by
  simp only [OccurrenceIndicator.new, M.bind_eq_some, M.run_now, M.run_pure, Option.some.injEq, Prod.mk.injEq] at h
  obtain ⟨_, _, ⟨rfl, rfl⟩, r, _, h, rfl, rfl⟩ := h
  obtain ⟨rfl, rfl, _⟩ := subDur_eq_some h
  have := mono k₀ j hj
  simp only; push_cast; omega

/-- The same after the window was changed. -/
theorem C36_occurrence_set_window {e : Env} (mono : e.Mono) {w : Nat} {k₀ k₁ : Nat} {i i' : OccurrenceIndicator}
    (h : i.setIfHappenedWithin w e k₀ = some (i', k₁)) (j : Nat) (hj : k₀ ≤ j) :
    i'.ifHappenedWithin = w ∧ ¬ e.clock j < i'.happenedLast + i'.ifHappenedWithin := by
  simp only [OccurrenceIndicator.setIfHappenedWithin, M.bind_eq_some, M.run_now, M.run_pure, Option.some.injEq,
    Prod.mk.injEq] at h
  obtain ⟨_, _, ⟨rfl, rfl⟩, r, _, h, rfl, rfl⟩ := h
  obtain ⟨rfl, rfl, _⟩ := subDur_eq_some h
  have := mono k₀ j hj
  exact ⟨rfl, by simp only; omega⟩

/-- A non-occurrence indicator shows whether there was no update (and no creation, before the first one) within its
window: the last one is at least the window ago. -/
theorem C36_non_occurrence {e : Env} {k k' k'' : Nat} {i i' : NonOccurrenceIndicator} {log : List (Event Update)}
    (h : History e k i log k' i') {into s : Snapshot} {d : Bool}
    (hput : i'.putSnapshot into d e k' = some (s, k'')) :
    ∃ front on rest, s = front ++ (i.name, .boolean (on ^^ i.invert)) :: rest ∧ (i.showInverted = none → rest = []) ∧
      (on = true ↔ (lastTap e.clock log).getD i.happenedLast + i.ifNotHappenedWithin ≤ e.clock k') := by
  have hi := NonOccurrenceIndicator.history h
  obtain ⟨b, k₁, hb, hs⟩ := putTimedSwitch_eq_some hput
  obtain ⟨hb, _⟩ := NonOccurrenceIndicator.state_eq_some hb
  subst hi
  simp only at hb hs
  refine ⟨putPostfixedDescriptives i.descr i.name into d,
    decide ((lastTap e.clock log).getD i.happenedLast + i.ifNotHappenedWithin ≤ e.clock k'), ?_⟩
  cases hsi : i.showInverted with
  | none => rw [hsi] at hs; exact ⟨[], by rw [hs.2, hb], by simp, by simp⟩
  | some alt =>
    rw [hsi] at hs; obtain ⟨b', _, hs⟩ := hs
    exact ⟨_, by rw [hs, hb], by simp, by simp⟩

/-- A new non-occurrence indicator counts from its creation. -/
theorem C36_non_occurrence_new {e : Env} {name : String} {k₀ k₁ : Nat} {i : NonOccurrenceIndicator}
    (h : NonOccurrenceIndicator.new name e k₀ = some (i, k₁)) : i.happenedLast = e.clock k₀ := by
  simp only [NonOccurrenceIndicator.new, M.bind_eq_some, M.run_now, M.run_pure, Option.some.injEq, Prod.mk.injEq] at h
  obtain ⟨_, _, ⟨rfl, rfl⟩, rfl, rfl⟩ := h; rfl

/-- The window of a non-occurrence indicator may be changed at any time. The updates before count. -/
theorem C36_non_occurrence_set_window {e : Env} {k k' k'' : Nat} {i i' : NonOccurrenceIndicator} {log : List (Event Update)}
    (h : History e k i log k' i') {w : Nat} {into s : Snapshot} {d : Bool}
    (hput : (i'.setIfNotHappenedWithin w).putSnapshot into d e k' = some (s, k'')) :
    ∃ front on rest, s = front ++ (i.name, .boolean (on ^^ i.invert)) :: rest ∧ (i.showInverted = none → rest = []) ∧
      (on = true ↔ (lastTap e.clock log).getD i.happenedLast + w ≤ e.clock k') := by
  have hi := NonOccurrenceIndicator.history h
  obtain ⟨front, on, rest, h1, h2, h3⟩ := C36_non_occurrence (History.nil (Nat.le_refl k')) hput
  subst hi
  exact ⟨front, on, rest, h1, h2, h3⟩

/-- Two indicators with equal windows, after their last update at the same moment: at every moment exactly one of them
is on. -/
theorem C36_complementary {e : Env} {k k₁ k₂ : Nat} {o : OccurrenceIndicator} {n : NonOccurrenceIndicator}
    (hw : o.ifHappenedWithin = n.ifNotHappenedWithin) (hl : o.happenedLast = n.happenedLast)
    (ho : o.invert = false) (hn : n.invert = false) {b b' : Bool}
    (hso : o.state e k = some (b, k₁)) (hsn : n.state e k = some (b', k₂)) : b' = !b := by
  rw [(OccurrenceIndicator.state_eq_some hso).1, (NonOccurrenceIndicator.state_eq_some hsn).1, hw, hl, ho, hn]
  by_cases h : e.clock k < n.happenedLast + n.ifNotHappenedWithin
  · rw [decide_eq_true h, decide_eq_false (by omega)]; rfl
  · rw [decide_eq_false h, decide_eq_true (by omega)]; rfl

/-- After any updates at the same moments they have the same last update. -/
theorem C36_same_updates {e : Env} {k₁ k₁' k₂ k₂' : Nat} {o o' : OccurrenceIndicator} {n n' : NonOccurrenceIndicator}
    {log log' : List (Event Update)} (ho : History e k₁ o log k₁' o') (hn : History e k₂ n log' k₂' n')
    (hsame : lastTap e.clock log = lastTap e.clock log') (hsome : (lastTap e.clock log).isSome) :
    o'.happenedLast = n'.happenedLast ∧ o'.ifHappenedWithin = o.ifHappenedWithin ∧ o'.invert = o.invert ∧
    n'.ifNotHappenedWithin = n.ifNotHappenedWithin ∧ n'.invert = n.invert := by
  rw [OccurrenceIndicator.history ho, NonOccurrenceIndicator.history hn, ← hsame]
  cases h : lastTap e.clock log with
  | none => rw [h] at hsome; cases hsome
  | some t => exact ⟨rfl, rfl, rfl, rfl, rfl⟩

/-- Two indicators with equal windows that saw the last update at the same moment, each after any history, are shown at the same
moment: exactly one of them is shown as on. -/
theorem C36_exactly_one {e : Env} {k₁ k₁' k₁'' k₂ k₂' k₂'' : Nat} {o o' : OccurrenceIndicator} {n n' : NonOccurrenceIndicator}
    {log log' : List (Event Update)} (ho : History e k₁ o log k₁' o') (hn : History e k₂ n log' k₂' n')
    (hsame : lastTap e.clock log = lastTap e.clock log') (hsome : (lastTap e.clock log).isSome)
    (hw : o.ifHappenedWithin = n.ifNotHappenedWithin) (hi : o.invert = false) (hi' : n.invert = false)
    (hmoment : e.clock k₁' = e.clock k₂') {into into' s s' : Snapshot} {d d' : Bool}
    (hs : o'.putSnapshot into d e k₁' = some (s, k₁'')) (hs' : n'.putSnapshot into' d' e k₂' = some (s', k₂'')) :
    ∃ front front' on rest rest', s = front ++ (o.name, .boolean on) :: rest ∧ s' = front' ++ (n.name, .boolean !on) :: rest' := by
  obtain ⟨front, on, rest, h1, -, h2⟩ := C36_occurrence ho hs
  obtain ⟨front', on', rest', h3, -, h4⟩ := C36_non_occurrence hn hs'
  refine ⟨front, front', on, rest, rest', by simpa [hi] using h1, ?_⟩
  obtain ⟨tap, ht⟩ := Option.isSome_iff_exists.mp hsome
  rw [ht] at h2
  rw [← hsame, ht] at h4
  simp only [Option.getD_some] at h2 h4
  have : on' = !on := by
    rw [hmoment, hw] at h2
    cases on <;> cases on' <;> simp only [true_iff, Bool.false_eq_true, false_iff] at h2 h4 <;> first | rfl | omega
  rw [h3, hi', this]
  simp

/-- Window 2 s, update at 1.4 s: at 2.1 s the first is on, at 4.2 s the second. -/
example : ∃ o' n',
    History (C := OccurrenceIndicator) (A := Update) ticking 1 { name := "o", ifHappenedWithin := 2000000000, happenedLast := -60 }
      [⟨2, .input (.observation 0), .updated 1, 3⟩] 3 o' ∧
    History (C := NonOccurrenceIndicator) (A := Update) ticking 1 { name := "n", ifNotHappenedWithin := 2000000000, happenedLast := 0 }
      [⟨2, .input (.observation 0), .updated 1, 3⟩] 3 n' ∧
    (o'.state ticking 3).map (·.1) = some true ∧ (n'.state ticking 3).map (·.1) = some false ∧
    (o'.state ticking 6).map (·.1) = some false ∧ (n'.state ticking 6).map (·.1) = some true :=
  ⟨_, _, .cons (by decide) rfl (.nil (by decide)), .cons (by decide) rfl (.nil (by decide)), rfl, rfl, rfl, rfl⟩

/-- A shorter window, set after the update, is already over. -/
example : let n : NonOccurrenceIndicator := { name := "n", ifNotHappenedWithin := 2000000000, happenedLast := 1400000000 }
    (n.putSnapshot [] false ticking 3).map (·.1) = some [("n", .boolean false)] ∧
    ((n.setIfNotHappenedWithin 700000000).putSnapshot [] false ticking 3).map (·.1) = some [("n", .boolean true)] := ⟨rfl, rfl⟩

/-- Updates with a snapshot in between. -/
def tappedOps : List (Op Update) := [.input (.observation 0), .snapshot [] true, .input (.observation 0)]

/-- Both kinds of indicators with a window of two seconds. -/
def occurrence : OccurrenceIndicator := { name := "o", ifHappenedWithin := 2000000000, happenedLast := -60 }
def nonOccurrence : NonOccurrenceIndicator := { name := "n", ifNotHappenedWithin := 2000000000, happenedLast := 0 }

example := C36_occurrence (played_history (e := ticking) (k := 1) (c := occurrence) (ops := tappedOps) rfl) (into := []) (d := true) rfl
example := C36_occurrence_new ticking_mono (name := "o") (k₀ := 3) rfl 3 (by decide)
example := C36_occurrence_set_window ticking_mono (w := 5) (k₀ := 3) (i := occurrence) rfl 3 (by decide)
example := C36_non_occurrence (played_history (e := ticking) (k := 1) (c := nonOccurrence) (ops := tappedOps) rfl) (into := []) (d := true) rfl
example := C36_non_occurrence_new (e := ticking) (name := "n") (k₀ := 3) rfl
example := C36_non_occurrence_set_window (played_history (e := ticking) (k := 1) (c := nonOccurrence) (ops := tappedOps) rfl) (w := 7)
  (into := []) (d := true) rfl
example := C36_complementary (e := ticking) (k := 3) (o := { occurrence with happenedLast := 0 }) (n := nonOccurrence) rfl rfl rfl rfl rfl rfl
example := C36_same_updates (played_history (e := ticking) (k := 1) (c := occurrence) (ops := tappedOps) rfl)
  (played_history (e := ticking) (k := 1) (c := nonOccurrence) (ops := tappedOps) rfl) rfl rfl
example := C36_exactly_one (played_history (e := ticking) (k := 1) (c := occurrence) (ops := tappedOps) rfl)
  (played_history (e := ticking) (k := 1) (c := nonOccurrence) (ops := tappedOps) rfl) rfl rfl rfl rfl rfl rfl
  (into := []) (d := true) rfl (into' := []) (d' := true) rfl

end Metrix
