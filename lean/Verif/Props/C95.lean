import Verif.Proof.Warnings
import Verif.Props.C79

/-! # C95: The log accounts for what was dropped

With the feature `log` a driver writes a warning when its runs dropped observations, but not more often than every five seconds. A warning tells
what was dropped since the one before.
-/

namespace Metrix
section
variable {σ L : Type} [DecidableEq L] [Custom σ L] [CustomProcessor σ]
variable {e : Env} {k k₁ k₂ k₃ : Nat} {name : Option String} {descr : Descr} {strategy : Strategy} {withMetrics : Bool}
  {programs : List (SendThread (DriverMsg σ L))} {t : DriverThread σ L} {log : List (Iteration σ L)} {l l' : Loop σ L} {i : Iteration σ L}

omit [DecidableEq L] [Custom σ L] [CustomProcessor σ] in
theorem NewDriver.warns (hnew : NewDriver e k name descr strategy withMetrics programs t) :
    ∃ k₀, k₀ < k ∧ ∀ l, t = .running l → l.state.Warns e k₀ [] := by
  obtain ⟨_, state, ahead, blind, hn, rfl⟩ := hnew.created
  obtain ⟨k₀, hk, hs⟩ := LoopState.new_warns hn
  exact ⟨k₀, hk, fun l hl => by cases hl; exact hs⟩

/-- The iterations of a driver can be cut such that each warning tells what was dropped in one of the parts, and every part belongs to one
warning, except for the last one. -/
theorem C95_told (hc : CustomForward σ L) (hp : CustomProcessorForward σ)
    (hnew : NewDriver e k name descr strategy withMetrics programs t) (h : DriverLife e k t log k₁ (.running l)) :
    ∃ rest, WarnedFor log l.state.warned rest := by
  obtain ⟨k₀, _, hw⟩ := hnew.warns
  obtain ⟨rest, h1, _⟩ := (h.warns hc hp hw l rfl).told
  exact ⟨rest, h1⟩

/-- The warnings never tell more than what was dropped. Without drops there are none. -/
theorem C95_no_more (hc : CustomForward σ L) (hp : CustomProcessorForward σ)
    (hnew : NewDriver e k name descr strategy withMetrics programs t) (h : DriverLife e k t log k₁ (.running l)) :
    warnedOf l.state.warned ≤ droppedIn log ∧ (droppedIn log = 0 → l.state.warned = []) := by
  obtain ⟨rest, h1⟩ := C95_told hc hp hnew h
  have h2 := h1.total
  refine ⟨by omega, fun h0 => ?_⟩
  obtain ⟨ss, _, h3⟩ := h1
  cases hws : l.state.warned with
  | nil => rfl
  | cons w ws =>
    rw [hws] at h3 h2
    cases h3 with
    | cons h3 _ =>
      have : warnedOf (w :: ws) = w.dropped + warnedOf ws := rfl
      omega

/-- More than five seconds are between two warnings. -/
theorem C95_apart (hc : CustomForward σ L) (hp : CustomProcessorForward σ) (he : e.Mono)
    (hnew : NewDriver e k name descr strategy withMetrics programs t) (h : DriverLife e k t log k₁ (.running l)) :
    WarnsApart e l.state.warned := by
  obtain ⟨k₀, _, hw⟩ := hnew.warns
  exact (h.warns hc hp hw l rfl).apart he

/-- An iteration writes nothing, or one warning. Then it had a run, and everything that was dropped so far has been told. -/
theorem C95_when (hc : CustomForward σ L) (hp : CustomProcessorForward σ)
    (hnew : NewDriver e k name descr strategy withMetrics programs t) (h : DriverLife e k t log k₁ (.running l))
    (hi : (DriverThread.running l).iterate e k₂ = (.running l', some i, k₃)) :
    l'.state.warned = l.state.warned ∨
      i.outcome ≠ none ∧ ∃ w, l'.state.warned = l.state.warned ++ [w] ∧ k₂ < w.readings ∧ w.readings < k₃ ∧ 0 < w.dropped ∧
        warnedOf l'.state.warned = droppedIn (log ++ [i]) := by
  obtain ⟨k₀, _, hw⟩ := hnew.warns
  obtain ⟨⟨⟨rest, h1, h2⟩, _, _⟩, h3⟩ := iterate_warns hc hp hi (h.warns hc hp hw l rfl)
  rcases h3 with ⟨h3, _⟩ | ⟨ho, w, h3, h4, h5, h6, h7⟩
  · exact .inl h3
  · refine .inr ⟨ho, w, h3, h5, h6, h7, ?_⟩
    rw [h4] at h2
    have h8 := h1.total
    rw [List.nil_append] at h8
    omega

/-- If the last warning, if there was one, was written more than five seconds ago, then after the next run everything that was dropped so far
has been told. -/
theorem C95_prompt (hc : CustomForward σ L) (hp : CustomProcessorForward σ) (he : e.Mono)
    (hnew : NewDriver e k name descr strategy withMetrics programs t) (h : DriverLife e k t log k₁ (.running l)) (hk : k₁ ≤ k₂)
    (hi : (DriverThread.running l).iterate e k₂ = (.running l', some i, k₃)) (hrun : i.outcome ≠ none)
    (hlong : ∀ w, l.state.warned.getLast? = some w → e.clock k₂ - e.clock w.readings > 5 * 10 ^ 9) :
    warnedOf l'.state.warned = droppedIn (log ++ [i]) := by
  obtain ⟨k₀, hk₀, hw⟩ := hnew.warns
  have hl := h.warns hc hp hw l rfl
  have hle := h.le hc hp
  obtain ⟨⟨⟨rest, h1, h2⟩, _, _⟩, h3⟩ := iterate_warns hc hp hi hl
  have h8 := h1.total
  rw [List.nil_append] at h8
  suffices h0 : l'.state.droppedSinceLastLogged = 0 by omega
  rcases h3 with ⟨_, h3⟩ | ⟨_, w, _, h4, _⟩
  · by_contra hne
    obtain ⟨j, hj, hs⟩ := h3 hrun (by omega)
    have hm := he k₂ j hj
    simp only [sinceNs] at hs
    rcases hl.last with ⟨_, h5⟩ | ⟨w, h5, h6⟩
    · have := he k₀ k₂ (by omega)
      omega
    · have := hlong w h5
      omega
  · exact h4

end

/-! ## Example: a driver that drops everything -/

/-- A processor with `n` observations in its queue. -/
def backlogOf (n : Nat) : Node Empty Nat :=
  .processor { state := { activity := ⟨0, none, true⟩ }, receiver :=
    { chan := { (Channel.fresh none true [{ todo := [], drops := false }] : Channel (Message Empty Nat)) with
        queue := List.replicate n (0, .observation (.observedOne 0 0)) } } }

/-- The same after they have been dropped, at the given moment. -/
def backlogGone (n : Nat) (t : Int) : Node Empty Nat :=
  .processor { state := { activity := ⟨t, none, true⟩ }, receiver :=
    { chan := { (Channel.fresh none true [{ todo := [], drops := false }] : Channel (Message Empty Nat)) with
        taken := List.replicate n (0, .observation (.observedOne 0 0)) } } }

/-- Three processors are added, with 2, 3 and 1 observations. -/
def tellingPrograms : List (SendThread (DriverMsg Empty Nat)) :=
  [{ todo := [.addProcessor (backlogOf 2), .addProcessor (backlogOf 3), .addProcessor (backlogOf 1)], drops := true }]

/-- The driver when the first `n` of them have been added. -/
def tellingDriver (n : Nat) (processors : List (Node Empty Nat)) (lastOutcomeLogged : Int) (since : Nat) (warned : List Warning)
    (ahead : List (List Nat)) : Loop Empty Nat :=
  { state := { metrics := none, lastOutcomeLogged, droppedSinceLastLogged := since, strategy := .dropAll, processors, warned }
    receiver :=
      { chan :=
          { (Channel.fresh none true tellingPrograms : Channel (DriverMsg Empty Nat)) with
            threads := [{ todo := ([2, 3, 1].drop n).map fun n => .addProcessor (backlogOf n), drops := true }]
            log := ([2, 3, 1].take n).map fun n => ⟨0, .addProcessor (backlogOf n), true⟩
            taken := ([2, 3, 1].take n).map fun n => (0, .addProcessor (backlogOf n)) }
        ahead } }

/-- Nothing happens for six seconds before the third iteration. -/
def pausing : Env := { ticking with clock := fun k => (if k < 12 then (k : Int) else k + 6000) * 10 ^ 6 }

theorem pausing_mono : pausing.Mono := by
  intro i j hij
  simp only [pausing]
  split <;> split <;> omega

def telling0 : Loop Empty Nat := tellingDriver 0 [] (-60 * 10 ^ 9) 0 [] [[], [0], [], [0], [], [], [], [0], [0]]

example : NewDriver pausing 1 none {} .dropAll false tellingPrograms (.running telling0) := ⟨0, _, _, _, rfl, rfl⟩

def telling1 : Loop Empty Nat := tellingDriver 1 [backlogGone 2 3000000] 6000000 0 [⟨6, 2⟩] [[], [0], [], [], [], [0], [0]]

set_option maxRecDepth 20000 in
theorem telling_step0 : (DriverThread.running telling0).iterate pausing 1 =
    (.running telling1, some { message := some (.addProcessor (backlogOf 2)), outcome := some { dropped := 2 } }, 7) := rfl

def telling2 : Loop Empty Nat :=
  tellingDriver 2 [backlogGone 2 3000000, backlogGone 3 9000000] 6000000 3 [⟨6, 2⟩] [[], [], [], [0], [0]]

set_option maxRecDepth 20000 in
theorem telling_step1 : (DriverThread.running telling1).iterate pausing 7 =
    (.running telling2, some { message := some (.addProcessor (backlogOf 3)), outcome := some { dropped := 3 } }, 12) := rfl

def telling3 : Loop Empty Nat :=
  tellingDriver 2 [backlogGone 2 3000000, backlogGone 3 9000000] 6016000000 0 [⟨6, 2⟩, ⟨16, 3⟩] [[], [0], [0]]

set_option maxRecDepth 20000 in
theorem telling_step2 : (DriverThread.running telling2).iterate pausing 12 =
    (.running telling3, some { outcome := some {}, rest := some ⟨18, 6000000⟩ }, 18) := rfl

def telling4 : Loop Empty Nat :=
  tellingDriver 3 [backlogGone 2 3000000, backlogGone 3 9000000, backlogGone 1 6020000000] 6016000000 1 [⟨6, 2⟩, ⟨16, 3⟩] [[0]]

set_option maxRecDepth 20000 in
theorem telling_step3 : (DriverThread.running telling3).iterate pausing 18 =
    (.running telling4, some { message := some (.addProcessor (backlogOf 1)), outcome := some { dropped := 1 } }, 23) := rfl

/-- The first run drops 2, which is told at once. The second one drops 3, which is told after the third run, six seconds later. The fourth one drops
1. -/
theorem telling_life : DriverLife pausing 1 (.running telling0) [
      { message := some (.addProcessor (backlogOf 2)), outcome := some { dropped := 2 } },
      { message := some (.addProcessor (backlogOf 3)), outcome := some { dropped := 3 } },
      { outcome := some {}, rest := some ⟨18, 6000000⟩ },
      { message := some (.addProcessor (backlogOf 1)), outcome := some { dropped := 1 } }] 23 (.running telling4) :=
  .iteration (Nat.le_refl _) telling_step0 (.iteration (Nat.le_refl _) telling_step1 (.iteration (Nat.le_refl _) telling_step2
    (.iteration (Nat.le_refl _) telling_step3 (.nil (Nat.le_refl _)))))

example : telling4.state.warned = [⟨6, 2⟩, ⟨16, 3⟩] := rfl

/-- When a driver ends, nothing is written about what was dropped since the last warning: of 6 observations that are dropped here only 5 are ever told. -/
theorem C95_finding_end : NewDriver pausing 1 none {} .dropAll false tellingPrograms (.running telling0) ∧
    ∃ (log : List (Iteration Empty Nat)) (l : Loop Empty Nat) (c : Channel (DriverMsg Empty Nat)),
      DriverLife pausing 1 (.running telling0) log 23 (.running l) ∧ droppedIn log = 6 ∧ warnedOf l.state.warned = 5 ∧
        (DriverThread.running l).iterate pausing 23 = (.ended c, none, 23) :=
  ⟨⟨0, _, _, _, rfl, rfl⟩, _, _, _, telling_life, rfl, rfl, rfl⟩

end Metrix
