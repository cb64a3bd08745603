import Verif.Proof.Histogram
import Verif.Props.C25

/-! # C33: histogram inactivity display -/

namespace Metrix

theorem Histogram.lastUpdate_le {e : Env} (mono : e.Mono) {k k' : Nat} {h h' : Histogram} {log : List (Event Update)}
    (hist : History e k h log k' h') (h0 : h.lastUpdate ≤ e.clock k) : h'.lastUpdate ≤ e.clock k' := by
  induction hist with
  | nil hk => exact le_trans h0 (mono _ _ hk)
  | @cons k k₁ k₂ k' h h₁ h' op out log hk hs _ ih =>
    refine ih ?_
    cases op with
    | snapshot s d =>
      obtain rfl := Histogram.step_snapshot hs
      obtain ⟨_, _, hu⟩ := step_snapshot_eq_some.mp hs
      obtain ⟨_, _, rfl, hle, _⟩ := Histogram.putSnapshot_eq_some (keeping_eq_some.mp hu).2
      exact le_trans h0 (mono _ _ (by omega))
    | input u =>
      obtain ⟨n, _, hu⟩ := step_input_eq_some.mp hs
      obtain ⟨_, hle, hu⟩ := Histogram.update_eq_some hu
      cases hm : u.metered h.displayTimeUnit with
      | none => rw [hm] at hu; rw [hu.2.1]; exact le_trans h0 (mono _ _ (by omega))
      | some v => rw [hm] at hu; rw [hu.2.1]; exact mono _ _ (by omega)

/-- With a limit: the values are shown iff the last accepted update (or the creation) is less than the limit before
the moment of the snapshot; if the activity state is to be shown, exactly one of `_inactive` and `_active` is true. -/
theorem C33_with_limit {e : Env} (mono : e.Mono) {k k' k'' : Nat} {h h' : Histogram} {log : List (Event Update)}
    (hist : History e k h log k' h') (h0 : h.lastUpdate ≤ e.clock k) {l : Nat} (hl : h.maxInactivity = some l)
    {into s : Snapshot} {d : Bool} (hput : h'.putSnapshot into d e k' = some (s, k'')) :
    ∃ front active stats, (active = true ↔
        e.clock k' < lastAccepted e.clock h.displayTimeUnit h.lastUpdate log + l) ∧
      s = front ++ [(h.name, .snapshot ((if h.showActivityState then activityItems active else []) ++
        (if active then histogramItems stats h'.inner else [])))] := by
  obtain ⟨hc, hlast⟩ := Histogram.history_last hist
  obtain ⟨active, k₁, _, _, hact, hs⟩ := Histogram.putSnapshot_eq_some hput
  rw [hc.limit, hl, hc.name, hc.show_] at hs
  simp only [Option.isSome_some, Bool.true_and] at hs
  refine ⟨_, active, _, ?_, hs⟩
  rw [hact, hlast, hc.limit, hl]
  have hle : lastAccepted e.clock h.displayTimeUnit h.lastUpdate log ≤ e.clock k' := by
    rw [← hlast]; exact Histogram.lastUpdate_le mono hist h0
  constructor
  · intro h; have := h l rfl; omega
  · intro h l' hl'; obtain rfl : l = l' := by simpa using hl'
    omega

theorem lastAccepted_none {clock : Nat → Int} {unit : TimeUnit} {last : Int} {log : List (Event Update)}
    (h : ∀ x ∈ log, ∀ u, x.op = .input u → u.metered unit = none) : lastAccepted clock unit last log = last := by
  have : marks clock (Update.metered unit) log = [] := by
    induction log with
    | nil => rfl
    | cons x log ih =>
      obtain ⟨start, op, out, stop⟩ := x
      cases op with
      | snapshot s d => exact ih fun x hx => h x (List.mem_cons_of_mem _ hx)
      | input u =>
        simp only [marks, h _ List.mem_cons_self u rfl]
        exact ih fun x hx => h x (List.mem_cons_of_mem _ hx)
  rw [lastAccepted, this]; rfl

/-- A new histogram counts as updated when it was made: up to the first accepted update its values are shown iff the limit has not
passed since then. -/
theorem C33_new {e : Env} (mono : e.Mono) {name : String} {k k₁ k' k'' : Nat} {new h h' : Histogram} {log : List (Event Update)}
    (hnew : Histogram.new name e k = some (new, k₁)) {l : Nat} (hset : h = { new with maxInactivity := some l })
    (hist : History e k₁ h log k' h') (hnone : ∀ x ∈ log, ∀ u, x.op = .input u → u.metered h.displayTimeUnit = none)
    {into s : Snapshot} {d : Bool} (hput : h'.putSnapshot into d e k' = some (s, k'')) :
    ∃ front active stats, (active = true ↔ e.clock k' < e.clock k + l) ∧
      s = front ++ [(name, .snapshot ((if h.showActivityState then activityItems active else []) ++
        (if active then histogramItems stats h'.inner else [])))] := by
  subst hset
  obtain ⟨now, k₂, hn, hr⟩ := M.bind_eq_some.mp hnew
  cases hn; cases hr
  obtain ⟨front, active, stats, ha, hs⟩ := C33_with_limit mono hist (mono _ _ (Nat.le_succ _)) rfl hput
  refine ⟨front, active, stats, ?_, hs⟩
  rw [ha, lastAccepted_none hnone]

/-- Exactly one of the two activity items is true. -/
theorem C33_exclusive (active : Bool) : ∃ i a : Bool,
    activityItems active = [("_inactive", .boolean i), ("_active", .boolean a)] ∧ (i ^^ a) = true ∧ a = active :=
  ⟨!active, active, rfl, by cases active <;> rfl, rfl⟩

/-- Without a limit the values are always shown, and no activity state. -/
theorem C33_without_limit {e : Env} {k k' : Nat} {h : Histogram} (hl : h.maxInactivity = none)
    {into s : Snapshot} {d : Bool} (hput : h.putSnapshot into d e k = some (s, k')) :
    ∃ front stats, s = front ++ [(h.name, .snapshot (histogramItems stats h.inner))] := by
  obtain ⟨active, k₁, _, _, hact, hs⟩ := Histogram.putSnapshot_eq_some hput
  have ha : active = true := hact.mpr fun l hl' => by rw [hl] at hl'; cases hl'
  rw [hl, ha] at hs
  simp only [Option.isSome_none, Bool.false_and, Bool.false_eq_true, if_false, if_true, List.nil_append] at hs
  exact ⟨_, _, hs⟩

/-- 2 s limit, value at 1.4 s: shown at 2.1 s, not shown at 7 s. -/
example : ∃ h' : Histogram, History (C := Histogram) (A := Update) ticking 1 { name := "h", lastUpdate := 0, maxInactivity := some 2000000000 }
    [⟨1, .input (.withValue (.signedInteger 5) 0), .updated 1, 3⟩] 3 h' ∧
    (h'.putSnapshot [] false ticking 3).map (·.1) = some [("h", .snapshot
      (activityItems true ++ histogramItems (ticking.histStats 4 [5]) [5]))] ∧
    (h'.putSnapshot [] false ticking 10).map (·.1) = some [("h", .snapshot (activityItems false))] :=
  ⟨_, .cons (by decide) rfl (.nil (by decide)), rfl, rfl⟩

/-- Made at 0.7 s with a limit of 2 s: active at 2.1 s, inactive at 7 s. -/
example : (Histogram.new "h" ticking 1).map (fun r => { r.1 with maxInactivity := some 2000000000 }) =
      some { name := "h", lastUpdate := 700000000, maxInactivity := some 2000000000 } ∧
    History (C := Histogram) (A := Update) ticking 2 { name := "h", lastUpdate := 700000000, maxInactivity := some 2000000000 }
      [⟨2, .input (.observation 0), .updated 0, 3⟩] 3 { name := "h", lastUpdate := 700000000, maxInactivity := some 2000000000 } :=
  ⟨rfl, .cons (by decide) rfl (.nil (by decide))⟩

example := C33_with_limit ticking_mono (played_history (e := ticking) (k := 1)
  (c := ({ name := "h", lastUpdate := 0, maxInactivity := some 2000000000 } : Histogram))
  (ops := [.input (.withValue (.signedInteger 5) 0), .snapshot [] true]) rfl) (by decide) rfl (into := []) (d := true) rfl
example := C33_new ticking_mono (name := "h") (k := 1) rfl (l := 2000000000) rfl
  (played_history (ops := [.input (.observation 0), .snapshot [] true]) rfl) (by simp +contextual [Update.metered]) (into := []) (d := true) rfl
example := C33_without_limit (e := ticking) (k := 1) (h := { name := "h", lastUpdate := 0, inner := [4, 5] }) rfl (into := []) (d := true) rfl

end Metrix
