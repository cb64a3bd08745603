import Verif.Proof.Switches
import Verif.Props.C25

/-! # C37: the inverted item is the negation of the plain item

For timed switches this is false: the state is determined twice, with two clock readings, and the switch may go off in
between. Then both items are shown as true (`C37_finding_both_true`). Proved: the property whenever the switch does not
change between the two readings (`C37_no_change_partial`), and that items can never both be false (without `invert`).
For flags it always holds (C34). -/

namespace Metrix

/-- If the switch has the same state at both clock readings, the inverted item is the negation of the plain one. -/
theorem C37_no_change_partial {name : String} {descr : Descr} {alt : NameAlternation} {state : M Bool}
    {into s : Snapshot} {d : Bool} {e : Env} {k k' : Nat}
    (h : putTimedSwitch name descr (some alt) state into d e k = some (s, k'))
    (hsame : ∀ b k₁ b' k₂, state e k = some (b, k₁) → state e k₁ = some (b', k₂) → b' = b) :
    ∃ front b, s = front ++ [(name, .boolean b), (alt.adjustName name, .boolean !b)] := by
  obtain ⟨b, k₁, hb, b', hb', hs⟩ := putTimedSwitch_eq_some h
  rw [hsame _ _ _ _ hb hb'] at hs
  exact ⟨_, _, hs⟩

/-- All three timed switches put their items that way. -/
theorem C37_switches (t : StaircaseTimer) (o : OccurrenceIndicator) (n : NonOccurrenceIndicator) :
    t.putSnapshot = putTimedSwitch t.name t.descr t.showInverted t.state ∧
    o.putSnapshot = putTimedSwitch o.name o.descr o.showInverted o.state ∧
    n.putSnapshot = putTimedSwitch n.name n.descr n.showInverted n.state := ⟨rfl, rfl, rfl⟩

/-- When the state does not change: both readings are before or both are after the moment of switching. -/
theorem C37_when_staircase {t : StaircaseTimer} {e : Env} {k : Nat} {b b' : Bool} {k₁ k₂ : Nat}
    (hu : ∀ u, t.stayOnUntil = some u → (e.clock k ≤ u ↔ e.clock k₁ ≤ u))
    (h : t.state e k = some (b, k₁)) (h' : t.state e k₁ = some (b', k₂)) : b' = b := by
  rw [(StaircaseTimer.state_eq_some h).1, (StaircaseTimer.state_eq_some h').1]
  cases hs : t.stayOnUntil with
  | none => rfl
  | some u => simp only [hu u hs]

theorem C37_when_occurrence {i : OccurrenceIndicator} {e : Env} {k : Nat} {b b' : Bool} {k₁ k₂ : Nat}
    (hu : e.clock k < i.happenedLast + i.ifHappenedWithin ↔ e.clock k₁ < i.happenedLast + i.ifHappenedWithin)
    (h : i.state e k = some (b, k₁)) (h' : i.state e k₁ = some (b', k₂)) : b' = b := by
  rw [(OccurrenceIndicator.state_eq_some h).1, (OccurrenceIndicator.state_eq_some h').1]
  simp only [hu]

theorem C37_when_non_occurrence {i : NonOccurrenceIndicator} {e : Env} {k : Nat} {b b' : Bool} {k₁ k₂ : Nat}
    (hu : i.happenedLast + i.ifNotHappenedWithin ≤ e.clock k ↔ i.happenedLast + i.ifNotHappenedWithin ≤ e.clock k₁)
    (h : i.state e k = some (b, k₁)) (h' : i.state e k₁ = some (b', k₂)) : b' = b := by
  rw [(NonOccurrenceIndicator.state_eq_some h).1, (NonOccurrenceIndicator.state_eq_some h').1]
  simp only [hu]

/-- Time passes in one direction: a staircase timer or an occurrence indicator never shows both items as false, a
non-occurrence indicator never both as true (all without `invert`). -/
theorem C37_direction {e : Env} (mono : e.Mono) {k k₁ k₂ : Nat} {b b' : Bool} :
    (∀ t : StaircaseTimer, t.invert = false → t.state e k = some (b, k₁) → t.state e k₁ = some (b', k₂) →
      b' = true → b = true) ∧
    (∀ i : OccurrenceIndicator, i.invert = false → i.state e k = some (b, k₁) → i.state e k₁ = some (b', k₂) →
      b' = true → b = true) ∧
    (∀ i : NonOccurrenceIndicator, i.invert = false → i.state e k = some (b, k₁) → i.state e k₁ = some (b', k₂) →
      b = true → b' = true) := by
  refine ⟨fun t hi h h' hb => ?_, fun i hi h h' hb => ?_, fun i hi h h' hb => ?_⟩
  · obtain ⟨rfl, hk, _⟩ := StaircaseTimer.state_eq_some h
    have := mono k k₁ hk
    rw [(StaircaseTimer.state_eq_some h').1, hi] at hb
    rw [hi]
    cases hs : t.stayOnUntil with
    | none => simp [hs] at hb
    | some u => simp [hs] at hb ⊢; omega
  · obtain ⟨rfl, rfl⟩ := OccurrenceIndicator.state_eq_some h
    have := mono k (k + 1) (by omega)
    rw [(OccurrenceIndicator.state_eq_some h').1, hi] at hb
    rw [hi]; simp at hb ⊢; omega
  · obtain ⟨rfl, rfl⟩ := NonOccurrenceIndicator.state_eq_some h
    have := mono k (k + 1) (by omega)
    rw [(NonOccurrenceIndicator.state_eq_some h').1, hi]
    rw [hi] at hb; simp at hb ⊢; omega

/-- Finding: for each of the three there are a monotone clock and a state such that both items are equal. The clock
`ticking` is read 0.7 s apart, the switch changes in between. -/
theorem C37_finding_both_true :
    (∃ t : StaircaseTimer, (t.putSnapshot [] false ticking 1).map (·.1) =
      some [("t", .boolean true), ("t_off", .boolean true)]) ∧
    (∃ i : OccurrenceIndicator, (i.putSnapshot [] false ticking 1).map (·.1) =
      some [("t", .boolean true), ("t_off", .boolean true)]) ∧
    (∃ i : NonOccurrenceIndicator, (i.putSnapshot [] false ticking 1).map (·.1) =
      some [("t", .boolean false), ("t_off", .boolean false)]) :=
  ⟨⟨{ name := "t", showInverted := some (.post "_off"), stayOnUntil := some 1000000000 }, rfl⟩,
   ⟨{ name := "t", showInverted := some (.post "_off"), ifHappenedWithin := 1000000000, happenedLast := 0 }, rfl⟩,
   ⟨{ name := "t", showInverted := some (.post "_off"), ifNotHappenedWithin := 1000000000, happenedLast := 0 }, rfl⟩⟩

/-- The usual case. -/
example : (({ name := "t", showInverted := some (.post "_off"), stayOnUntil := some 9000000000 } :
    StaircaseTimer).putSnapshot [] false ticking 1).map (·.1) = some [("t", .boolean true), ("t_off", .boolean false)] :=
  rfl

/-- On until 9 s, shown at 0.7 s. -/
def litTimer : StaircaseTimer := { name := "t", showInverted := some (.post "_off"), stayOnUntil := some 9000000000 }

example := C37_no_change_partial (name := litTimer.name) (descr := litTimer.descr) (alt := .post "_off") (state := litTimer.state)
  (into := []) (d := true) (e := ticking) (k := 1) rfl (by
    intro b k₁ b' k₂ h h'; cases h; cases h'; rfl)
example := C37_when_staircase (t := litTimer) (e := ticking) (k := 1) (by rintro _ ⟨⟩; decide) rfl rfl
example := C37_when_occurrence (i := { name := "o", ifHappenedWithin := 5000000000, happenedLast := 0 }) (e := ticking) (k := 1)
  (by decide) rfl rfl
example := C37_when_non_occurrence (i := { name := "o", ifNotHappenedWithin := 5000000000, happenedLast := 0 }) (e := ticking) (k := 1)
  (by decide) rfl rfl
example := (C37_direction ticking_mono (k := 1)).1 litTimer rfl rfl rfl rfl

end Metrix
