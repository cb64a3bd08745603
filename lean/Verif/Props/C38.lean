import Verif.Proof.Switches
import Verif.Props.C25

/-! # C38: a data display shows the last value, or the reset value after the timeout -/

namespace Metrix

theorem DataDisplay.displayable_eq (u : Update) : u.observedValue.bind ObservedValue.toItemKind = u.displayable := by
  cases u with
  | withValue v t => cases v <;> rfl
  | _ => rfl

theorem DataDisplay.update_eq_some {x x' : DataDisplay} {u : Update} {n : Nat} {e : Env} {k k' : Nat}
    (h : x.update u e k = some ((x', n), k')) :
    match u.displayable with
    | some v => n = 1 ∧ x' = { x with
        value := some v
        stayOnUntil := match x.resetAfter with
          | some r => some (e.clock (k' - 1) + r)
          | none => x.stayOnUntil }
    | none => n = 0 ∧ x' = x := by
  unfold DataDisplay.update at h
  rw [DataDisplay.displayable_eq] at h
  cases hd : u.displayable with
  | none => simp only [hd] at h; simp at h; obtain ⟨⟨rfl, rfl⟩, rfl⟩ := h; exact ⟨rfl, rfl⟩
  | some v =>
    simp only [hd] at h
    cases hr : x.resetAfter with
    | none => simp only [hr] at h; simp at h; obtain ⟨⟨rfl, rfl⟩, rfl⟩ := h; exact ⟨rfl, by simp [hr]⟩
    | some r =>
      simp only [hr, M.bind_eq_some, M.run_now, M.run_pure, Option.some.injEq, Prod.mk.injEq] at h
      obtain ⟨_, _, ⟨rfl, rfl⟩, t, _, h, ⟨rfl, rfl⟩, rfl⟩ := h
      obtain ⟨rfl, rfl, _⟩ := addDur_eq_some h
      exact ⟨rfl, by simp [hr]⟩

theorem DataDisplay.history {e : Env} {k k' : Nat} {x x' : DataDisplay} {log : List (Event Update)}
    (h : History e k x log k' x') :
    x' = match lastArrival e.clock Update.displayable log with
      | some (t, v) => { x with
        value := some v
        stayOnUntil := match x.resetAfter with
          | some r => some (t + r)
          | none => x.stayOnUntil }
      | none => x := by
  have := History.lastWriter (sel := Update.displayable) (fun t v (x : DataDisplay) => { x with
        value := some v
        stayOnUntil := match x.resetAfter with
          | some r => some (t + r)
          | none => x.stayOnUntil }) ?_ ?_ ?_ h
  · rw [this]; cases lastArrival e.clock Update.displayable log <;> rfl
  · intro t b t' b' c; cases hr : c.resetAfter <;> simp [hr]
  · intro c u k c' n k' h
    have h := DataDisplay.update_eq_some h
    cases hd : u.displayable with
    | none => rw [hd] at h; exact h.2
    | some v => rw [hd] at h; exact h.2
  · intro c s d k c' s' k' h; exact (keeping_eq_some.mp h).1

/-- What a display shows at time `now` if its last displayable update is given: the value (the initial one before the
first update), but the reset value when `resetAfter` is set and that time has passed since the update. -/
def displayShows (x : DataDisplay) (last : Option (Int × ItemKind)) (now : Int) : Option ItemKind :=
  match last with
  | none => x.value
  | some (t, v) =>
    match x.resetAfter with
    | some r => if t + r < now then x.resetValue else some v
    | none => some v

/-- For a display that has not been updated before `log`: see `displayShows`. -/
theorem C38_shown {e : Env} {k k' k'' : Nat} {x x' : DataDisplay} {log : List (Event Update)}
    (h : History e k x log k' x') (h0 : x.stayOnUntil = none) {into s : Snapshot} {d : Bool}
    (hput : x'.putSnapshot into d e k' = some (s, k'')) :
    s = putPostfixedDescriptives x.descr x.name into d ++
      match displayShows x (lastArrival e.clock Update.displayable log) (e.clock k') with
      | some v => [(x.name, v)]
      | none => [] := by
  have hx := DataDisplay.history h
  simp only [DataDisplay.putSnapshot, M.bind_eq_some] at hput
  obtain ⟨sh, k₁, hsh, hput⟩ := hput
  have fin : s = putPostfixedDescriptives x'.descr x'.name into d ++ match (generalizing := false) sh with
      | some v => [(x'.name, v)]
      | none => [] := by
    cases sh with
    | none => simp at hput; simp [hput.1]
    | some v => simp at hput; simp [← hput.1, Snapshot.push]
  rw [fin]
  unfold displayShows
  unfold DataDisplay.shown at hsh
  cases hl : lastArrival e.clock Update.displayable log with
  | none =>
    simp only [hl] at hx; subst hx
    simp only [h0] at hsh
    simp at hsh; rw [hsh.1]
  | some p =>
    obtain ⟨t, v⟩ := p
    simp only [hl] at hx; subst hx
    cases hr : x.resetAfter with
    | none =>
      simp only [hr, h0] at hsh
      simp at hsh; rw [← hsh.1]
    | some r =>
      simp only [hr, M.bind_eq_some, M.run_now, M.run_pure, Option.some.injEq, Prod.mk.injEq] at hsh
      obtain ⟨_, _, ⟨rfl, rfl⟩, rfl, rfl⟩ := hsh
      by_cases hc : t + (r : Int) < e.clock k'
      · rw [if_neg (by omega)]; simp only [if_pos hc]
      · rw [if_pos (by omega)]; simp only [if_neg hc]

/-- Setting a reset value also shows it before the first update. -/
theorem C38_reset_value (x : DataDisplay) (v : ItemKind) :
    displayShows (x.setResetValue v) none = fun _ => some v := rfl

/-- An update is reported as one iff it is displayable; others change nothing. -/
theorem C38_reports {x x' : DataDisplay} {u : Update} {n : Nat} {e : Env} {k k' : Nat}
    (h : x.update u e k = some ((x', n), k')) :
    n = (if u.displayable.isSome then 1 else 0) ∧ (u.displayable = none → x' = x) := by
  have h := DataDisplay.update_eq_some h
  cases hd : u.displayable with
  | none => rw [hd] at h; exact ⟨h.1, fun _ => h.2⟩
  | some v => rw [hd] at h; exact ⟨h.1, fun h => by cases h⟩

/-- Reset after 2 s: value 7 at 0.7 s is shown at 2.1 s, the reset value 0 at 3.5 s. -/
example : ∃ x', History (C := DataDisplay) (A := Update) ticking 1
    ((({ name := "d" } : DataDisplay).setResetAfter 2000000000).setResetValue (.int 0))
    [⟨1, .input (.withValue (.signedInteger 7) 0), .updated 1, 2⟩, ⟨2, .input (.observation 0), .updated 0, 2⟩] 2 x' ∧
    (x'.putSnapshot [] false ticking 3).map (·.1) = some [("d", .int 7)] ∧
    (x'.putSnapshot [] false ticking 5).map (·.1) = some [("d", .int 0)] :=
  ⟨_, .cons (by decide) rfl (.cons (by decide) rfl (.nil (by decide))), rfl, rfl⟩

example := C38_shown (played_history (e := ticking) (k := 1)
  (c := (({ name := "d" } : DataDisplay).setResetAfter 2000000000).setResetValue (.int 0))
  (ops := [.input (.withValue (.signedInteger 7) 0), .snapshot [] true, .input (.observation 0)]) rfl) rfl (into := []) (d := true) rfl
example := C38_reports (x := { name := "d" }) (u := .withValue (.signedInteger 7) 0) (e := ticking) (k := 1) rfl

end Metrix
