import Verif.Proof.Switches
import Verif.Props.C25

/-! # C35: a staircase timer is on exactly for the configured time after the last tap -/

namespace Metrix

/-- A timer that was never tapped before `log` shows, at the moment of a snapshot, whether there was an update and the
moment is at most `switch_off_after` later; negated if `invert` is set. -/
theorem C35_on_off {e : Env} {k k' k'' : Nat} {t t' : StaircaseTimer} {log : List (Event Update)}
    (h : History e k t log k' t') (h0 : t.stayOnUntil = none) {into s : Snapshot} {d : Bool}
    (hput : t'.putSnapshot into d e k' = some (s, k'')) :
    ∃ front on rest, s = front ++ (t.name, .boolean (on ^^ t.invert)) :: rest ∧ (t.showInverted = none → rest = []) ∧
      (on = true ↔ ∃ tap, lastTap e.clock log = some tap ∧ e.clock k' ≤ tap + t.switchOffAfter) := by
  have ht := StaircaseTimer.history h
  obtain ⟨b, k₁, hb, hs⟩ := putTimedSwitch_eq_some hput
  obtain ⟨hb, _⟩ := StaircaseTimer.state_eq_some hb
  cases hl : lastTap e.clock log with
  | none =>
    simp only [hl] at ht; subst ht
    simp only [h0] at hb
    refine ⟨putPostfixedDescriptives t'.descr t'.name into d, false, ?_⟩
    cases hi : t'.showInverted with
    | none => rw [hi] at hs; exact ⟨[], by rw [hs.2, hb], by simp, by simp⟩
    | some alt =>
      rw [hi] at hs; obtain ⟨b', _, hs⟩ := hs
      exact ⟨_, by rw [hs, hb], by simp, by simp⟩
  | some tap =>
    simp only [hl] at ht; subst ht
    simp only at hb hs
    refine ⟨putPostfixedDescriptives t.descr t.name into d, decide (e.clock k' ≤ tap + t.switchOffAfter), ?_⟩
    cases hi : t.showInverted with
    | none => rw [hi] at hs; exact ⟨[], by rw [hs.2, hb], by simp, by simp⟩
    | some alt =>
      rw [hi] at hs; obtain ⟨b', _, hs⟩ := hs
      exact ⟨_, by rw [hs, hb], by simp, by simp⟩

/-- A later tap never shortens the time the timer stays on. -/
theorem C35_never_shortened {e : Env} (mono : e.Mono) {k₁ k₂ k₂' k₃ k₄ : Nat} {t t₁ t₂ : StaircaseTimer}
    {u u' : Update} {n n' : Nat} (h₁ : t.update u e k₁ = some ((t₁, n), k₂)) (hk : k₂ ≤ k₂')
    (h₂ : t₁.update u' e k₂' = some ((t₂, n'), k₃)) {b₁ b₂ : Bool} {k₅ k₆ : Nat}
    (hs₁ : t₁.state e k₄ = some (b₁, k₅)) (hs₂ : t₂.state e k₄ = some (b₂, k₆))
    (hon : b₁ = !t.invert) : b₂ = !t.invert := by
  simp only [StaircaseTimer.update, M.bind_eq_some, M.run_now, M.run_pure, Option.some.injEq, Prod.mk.injEq] at h₁ h₂
  obtain ⟨_, _, ⟨rfl, rfl⟩, r, _, h₁, ⟨rfl, rfl⟩, rfl⟩ := h₁
  obtain ⟨_, _, ⟨rfl, rfl⟩, r', _, h₂, ⟨rfl, rfl⟩, rfl⟩ := h₂
  obtain ⟨rfl, rfl, _⟩ := addDur_eq_some h₁
  obtain ⟨rfl, rfl, _⟩ := addDur_eq_some h₂
  have hb₁ := (StaircaseTimer.state_eq_some hs₁).1
  have hb₂ := (StaircaseTimer.state_eq_some hs₂).1
  have hm := mono k₁ k₂' (by omega)
  simp only at hb₁ hb₂
  have : e.clock k₄ ≤ e.clock k₁ + t.switchOffAfter := by
    rw [hb₁] at hon
    by_contra hc
    simp [hc] at hon
  rw [hb₂, decide_eq_true (by omega : e.clock k₄ ≤ e.clock k₂' + t.switchOffAfter)]
  cases t.invert <;> rfl

/-- An update always reports 1. It panics only if the clock cannot represent the moment of switching off. -/
theorem C35_update {t : StaircaseTimer} {u : Update} {e : Env} {k : Nat} :
    (∀ t' n k', t.update u e k = some ((t', n), k') → n = 1) ∧
    (t.update u e k = none ↔ e.instMax < e.clock k + t.switchOffAfter) := by
  constructor
  · intro t' n k' h
    simp only [StaircaseTimer.update, M.bind_eq_some, M.run_pure, Option.some.injEq, Prod.mk.injEq] at h
    obtain ⟨_, _, _, _, _, _, ⟨_, rfl⟩, _⟩ := h; rfl
  · simp only [StaircaseTimer.update, M.run_bind, M.run_now, addDur]
    by_cases h : e.clock k + (t.switchOffAfter : Int) ≤ e.instMax
    · rw [if_pos h]; simp; omega
    · rw [if_neg h]; simp; omega

/-- 2 s; tapped at 0.7 s and 1.4 s: on at 3.4 s (just before 3.5 s), off at 4.2 s. -/
example : ∃ t', History (C := StaircaseTimer) (A := Update) ticking 1 { name := "t", switchOffAfter := 2000000000 }
    [⟨1, .input (.observation 0), .updated 1, 2⟩, ⟨2, .input (.observation 0), .updated 1, 3⟩] 3 t' ∧
    (t'.putSnapshot [] false ticking 4).map (·.1) = some [("t", .boolean true)] ∧
    (t'.putSnapshot [] false ticking 6).map (·.1) = some [("t", .boolean false)] :=
  ⟨_, .cons (by decide) rfl (.cons (by decide) rfl (.nil (by decide))), rfl, rfl⟩

example := C35_on_off (played_history (e := ticking) (k := 1) (c := ({ name := "t", switchOffAfter := 2000000000 } : StaircaseTimer))
  (ops := [.input (.observation 0), .snapshot [] true, .input (.observation 0)]) rfl) rfl (into := []) (d := true) rfl
example := C35_never_shortened ticking_mono (t := { name := "t", switchOffAfter := 2000000000 }) (u := .observation 0)
  (u' := .observation 0) (k₁ := 1) (k₂' := 2) rfl (by decide) rfl (k₄ := 3) rfl rfl rfl
example := C35_update (t := { name := "t", switchOffAfter := 2000000000 }) (u := .observation 0) (e := ticking) (k := 1) |>.1 _ _ _ rfl

end Metrix
