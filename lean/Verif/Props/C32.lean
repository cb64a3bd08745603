import Verif.Proof.Histogram
import Verif.Props.C25

/-! # C32: a histogram records exactly the value observations since its last reset -/

namespace Metrix

/-- Without an inactivity limit, or if it is not to be reset, all accepted values are added, whenever they come. -/
theorem C32_no_limit {e : Env} {k k' : Nat} {h h' : Histogram} {log : List (Event Update)}
    (hist : History e k h log k' h') (hlim : h.maxInactivity = none ∨ h.resetAfterInactivity = false) :
    h'.inner = h.inner ++ acceptedValues h.displayTimeUnit log := by
  refine Histogram.history_noReset hist fun l₁ ev l₂ _ _ d hd hres => ?_
  rcases hlim with h1 | h1 <;> simp_all

/-- With a limit and reset: as long as there is no gap longer than the limit, all accepted values are added. -/
theorem C32_no_gap {e : Env} {k k' : Nat} {h h' : Histogram} {log : List (Event Update)}
    (hist : History e k h log k' h') {d : Nat} (hd : h.maxInactivity = some d)
    (hno : NoGap e.clock h.displayTimeUnit d h.lastUpdate [] log) :
    h'.inner = h.inner ++ acceptedValues h.displayTimeUnit log := by
  refine Histogram.history_noReset hist fun l₁ ev l₂ hl hin d' hd' _ hlt => ?_
  obtain rfl : d = d' := by rw [hd] at hd'; simpa using hd'
  exact hno l₁ ev l₂ hl ⟨hin, hlt⟩

/-- With a limit and reset: after the last gap longer than the limit, the histogram contains exactly the values
accepted since then, starting with the update that ended the gap. -/
theorem C32_since_last_gap {e : Env} {k k' : Nat} {h h' : Histogram} {before after : List (Event Update)}
    {ev : Event Update} (hist : History e k h (before ++ ev :: after) k' h') {d : Nat}
    (hd : h.maxInactivity = some d) (hres : h.resetAfterInactivity = true)
    (hgap : GapBefore e.clock h.displayTimeUnit d h.lastUpdate before ev)
    (hno : NoGap e.clock h.displayTimeUnit d h.lastUpdate (before ++ [ev]) after) :
    h'.inner = acceptedValues h.displayTimeUnit (ev :: after) := by
  obtain ⟨k₁, h₁, hist₁, hist₂⟩ := hist.split
  obtain ⟨hc₁, hl₁⟩ := Histogram.history_last hist₁
  obtain ⟨⟨u, hu⟩, hlt⟩ := hgap
  obtain ⟨start, op, out, stop⟩ := ev
  cases hu
  cases hist₂ with
  | @cons _ _ _ _ _ h₂ _ _ _ _ hk hs hist₃ =>
    obtain ⟨n, _, hup⟩ := step_input_eq_some.mp hs
    obtain ⟨hc₂, _, hup⟩ := Histogram.update_eq_some hup
    have hreset : h₁.resetsAt (e.clock start) :=
      ⟨d, by rw [hc₁.limit, hd], by rw [hc₁.reset, hres], by rw [hl₁]; exact hlt⟩
    have hc := hc₁.trans hc₂
    have hlast : h₂.lastUpdate = lastAccepted e.clock h.displayTimeUnit h.lastUpdate
        (before ++ [⟨start, .input u, out, stop⟩]) := by
      rw [lastAccepted_append, ← hl₁]
      rw [hc₁.unit] at hup
      cases hm : u.metered h.displayTimeUnit with
      | none => rw [hm] at hup; rw [hup.2.1]; simp [lastAccepted, marks, hm]
      | some v => rw [hm] at hup; rw [hup.2.1]; simp [lastAccepted, marks, hm]
    have hrest := Histogram.history_noReset hist₃ fun l₁ ev l₂ hl hin d' hd' _ hlt' => by
      obtain rfl : d = d' := by rw [hc.limit, hd] at hd'; simpa using hd'
      refine hno l₁ ev l₂ hl ⟨hin, ?_⟩
      rwa [lastAccepted_append, ← hlast, ← hc.unit]
    rw [hrest, hc.unit]
    rw [hc₁.unit] at hup
    cases hm : u.metered h.displayTimeUnit with
    | none =>
      rw [hm] at hup
      rcases hup.2.2 with ⟨_, hb⟩ | ⟨ha, _⟩
      · rw [hb]; simp [acceptedValues, inputs, hm]
      · exact absurd hreset ha
    | some v =>
      rw [hm] at hup
      rcases hup.2.2 with ⟨_, hb⟩ | ⟨ha, _⟩
      · rw [hb]; simp [acceptedValues, inputs, hm]
      · exact absurd hreset ha

/-- Every log either has no gap or a last one. -/
theorem C32_cases (clock : Nat → Int) (unit : TimeUnit) (d : Nat) (last : Int) (log : List (Event Update)) :
    NoGap clock unit d last [] log ∨ ∃ before ev after, log = before ++ ev :: after ∧
      GapBefore clock unit d last before ev ∧ NoGap clock unit d last (before ++ [ev]) after := by
  suffices ∀ before, NoGap clock unit d last before log ∨ ∃ l₁ ev after, log = l₁ ++ ev :: after ∧
      GapBefore clock unit d last (before ++ l₁) ev ∧ NoGap clock unit d last (before ++ l₁ ++ [ev]) after by
    rcases this [] with h | ⟨l₁, ev, after, h⟩
    · exact .inl h
    · exact .inr ⟨l₁, ev, after, h⟩
  induction log with
  | nil => intro before; left; intro l₁ ev l₂ h; simp at h
  | cons ev log ih =>
    intro before
    rcases ih (before ++ [ev]) with h | ⟨l₁, ev', after, rfl, hg, hn⟩
    · by_cases hg : GapBefore clock unit d last before ev
      · exact .inr ⟨[], ev, log, rfl, by simpa using hg, by simpa using h⟩
      · left
        intro l₁ ev' l₂ hl
        cases l₁ with
        | nil =>
          obtain ⟨rfl, rfl⟩ := List.cons.inj hl
          rwa [List.append_nil]
        | cons x l₁ =>
          obtain ⟨rfl, rfl⟩ := List.cons.inj hl
          simpa using h l₁ ev' l₂ rfl
    · exact .inr ⟨ev :: l₁, ev', after, rfl, by simpa using hg, by simpa using hn⟩

/-- An update is reported as one iff it is accepted. -/
theorem C32_reports {e : Env} {k k' n : Nat} {u : Update} {h h' : Histogram}
    (hu : h.update u e k = some ((h', n), k')) :
    n = if (u.metered h.displayTimeUnit).isSome then 1 else 0 := by
  have := (Histogram.update_eq_some hu).2.2
  cases hm : u.metered h.displayTimeUnit with
  | none => rw [hm] at this; exact this.1
  | some v => rw [hm] at this; exact this.1

/-- A snapshot of an active histogram shows as `count` how many values it contains. -/
theorem C32_count {e : Env} {k k' : Nat} {h h' : Histogram} {log : List (Event Update)}
    (hist : History e k h log k' h') (hlim : h.maxInactivity = none) {into s : Snapshot} {d : Bool} {k'' : Nat}
    (hput : h'.putSnapshot into d e k' = some (s, k'')) :
    ∃ front others, s = front ++ [(h.name, .snapshot (("count", .uint (h.inner.length +
      (acceptedValues h.displayTimeUnit log).length)) :: others))] := by
  obtain ⟨hc, _⟩ := Histogram.history_last hist
  have hin := C32_no_limit hist (.inl hlim)
  obtain ⟨active, k₁, _, _, hact, hs⟩ := Histogram.putSnapshot_eq_some hput
  have ha : active = true := hact.mpr fun l hl => by rw [hc.limit, hlim] at hl; cases hl
  rw [hc.limit, hlim, hc.name, ha] at hs
  simp only [Option.isSome_none, Bool.false_and, Bool.false_eq_true, if_false, if_true, List.nil_append] at hs
  rw [← List.length_append, ← hin]
  unfold histogramItems at hs
  by_cases h0 : h'.inner.length = 0
  · rw [if_pos h0] at hs; rw [h0]; exact ⟨_, [], hs⟩
  · rw [if_neg h0] at hs; exact ⟨_, _, hs⟩

/-- A histogram with a limit of 2 s and the clock `ticking` (0.7 s per reading): values 5 and 6, then a gap,
then an ignored update and 7. Only 7 is left. -/
example : ∃ h' : Histogram, History (C := Histogram) (A := Update) ticking 1 { name := "h", lastUpdate := 0, maxInactivity := some 2000000000 }
    [⟨1, .input (.withValue (.signedInteger 5) 0), .updated 1, 3⟩,
     ⟨3, .input (.withValue (.signedInteger 6) 0), .updated 1, 5⟩,
     ⟨10, .input (.observation 0), .updated 0, 11⟩,
     ⟨11, .input (.withValue (.signedInteger 7) 0), .updated 1, 13⟩] 13 h' ∧ h'.inner = [7] :=
  ⟨_, .cons (by decide) rfl (.cons (by decide) rfl (.cons (by decide) rfl (.cons (by decide) rfl (.nil (by decide))))),
    rfl⟩

/-- Values at 0.7 s and 2.1 s, then a pause of more than 2 seconds, one at 7.7 s. -/
def pausedOps : List (Event Update) := [⟨1, .input (.withValue (.signedInteger 5) 0), .updated 1, 3⟩,
  ⟨3, .input (.withValue (.signedInteger 6) 0), .updated 1, 5⟩, ⟨11, .input (.withValue (.signedInteger 7) 0), .updated 1, 13⟩]

example := C32_no_limit (played_history (e := ticking) (k := 1) (c := ({ name := "h", lastUpdate := 0 } : Histogram))
  (ops := pausedOps.map (·.op)) rfl) (.inl rfl)
example := C32_no_gap (played_history (e := ticking) (k := 1)
  (c := ({ name := "h", lastUpdate := 0, maxInactivity := some 2000000000 } : Histogram)) (ops := pausedOps.map (·.op)) rfl) rfl
  (fun l₁ ev l₂ hl hg => absurd hg.2 (by
    rcases l₁ with _ | ⟨_, _ | ⟨_, _ | ⟨_, _ | ⟨_, _⟩⟩⟩⟩ <;> simp only [List.cons_append, List.nil_append, List.cons.injEq, reduceCtorEq,
      and_false] at hl
    · rw [← hl.1]; decide
    · rw [← hl.2.1, ← hl.1]; decide
    · rw [← hl.2.2.1, ← hl.1, ← hl.2.1]; decide))
example := C32_since_last_gap (e := ticking) (k := 1) (h := { name := "h", lastUpdate := 0, maxInactivity := some 2000000000 })
  (before := pausedOps.take 2) (ev := ⟨11, .input (.withValue (.signedInteger 7) 0), .updated 1, 13⟩) (after := [])
  (.cons (by decide) rfl (.cons (by decide) rfl (.cons (by decide) rfl (.nil (Nat.le_refl _))))) rfl rfl ⟨⟨_, rfl⟩, by decide⟩
  (fun l₁ ev l₂ hl => by cases l₁ <;> cases hl)
example := C32_reports (e := ticking) (k := 1) (u := .withValue (.signedInteger 7) 0) (h := { name := "h", lastUpdate := 0 }) rfl
example := C32_count (played_history (e := ticking) (k := 1) (c := ({ name := "h", lastUpdate := 0 } : Histogram))
  (ops := pausedOps.map (·.op)) rfl) rfl (into := []) (d := true) rfl

end Metrix
