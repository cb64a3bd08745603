import Verif.Props.C55

/-! # C56: the inactivity alarm of a driver

The property says that the alarm turns on when no observations arrived for 60 seconds. This is not so
(`C56_violated`): the alarm is reset by every run of the loop, whether there were observations or not. What it shows is that
there was no run for 60 seconds (`C56_partial`). -/

namespace Metrix
variable {σ L : Type} [DecidableEq L] [Custom σ L] [CustomProcessor σ]

variable {e : Env} {k k' : Nat} {name : Option String} {descr : Descr} {strategy : Strategy}
  {programs : List (SendThread (DriverMsg σ L))} {t t' : DriverThread σ L}

/-- What the inactivity alarm shows in the answer given in the iteration `x`. Let `y` be the last iteration with a run before
that. If at least 60 seconds passed from the end of `y` to the beginning of `x` it is `true`. If less than 60 seconds passed
from the beginning of `y` to the end of `x` it is `false`. If there was no run at all, the same holds for the time since the
creation of the driver: it is `true` 60 seconds later. It is missing that the alarm turns on if there are runs without
observations, see below. -/
theorem C56_partial (hmono : e.Mono) (hf : AllForward σ L) (hnew : NewDriver e k name descr strategy true programs t)
    {tl before after : List (TimedIteration σ L)} (h : DriverTimeline e k t tl k' t')
    {x : TimedIteration σ L} (htl : tl = before ++ x :: after) {id : Nat} {d : Bool}
    (hm : x.what.message = some (.getSnapshot id d)) {s : Snapshot} (hs : x.what.answer = some s) :
    ∃ front c on, s = grouped name (front ++ [("_metrix", .snapshot c)]) ∧
      ("inactivity_alarm", .boolean on) ∈ c ∧
      match (generalizing := false) lastRunWith (fun _ => true) before with
      | none => e.clock k + (60 * nanosPerSec : Nat) ≤ e.clock x.start → on = true
      | some y =>
        (e.clock y.stop + (60 * nanosPerSec : Nat) ≤ e.clock x.start → on = true) ∧
        (e.clock x.stop < e.clock y.start + (60 * nanosPerSec : Nat) → on = false) := by
  obtain ⟨front, c, last, til, j₁, j₂, hs, hj, hl1, -, hsh⟩ := h.shown hnew htl hm hs
  obtain ⟨v1, v2, v3, v4, v5, v6, v7, v8, v9, v10, b11, b12, v13, v14, rfl, -, -, -, -, -, -, -, -, -, -, -, w12, -⟩ := hsh
  refine ⟨front, _, b12, hs, by simp, ?_⟩
  rw [LastSet.iff] at hl1
  unfold lastRunWith
  generalize (before.filter fun x => x.what.outcome.any fun o => true).getLast? = last' at hl1
  obtain ⟨-, -, g1, g2⟩ := hj hf
  have q3 := hmono _ _ g1
  have q4 := hmono _ _ g2
  cases last' with
  | none =>
    simp only at hl1 ⊢
    obtain ⟨j, hj, rfl⟩ := hl1
    have q1 := hmono _ _ hj.le
    exact fun h => w12.mpr (by omega)
  | some y =>
    simp only at hl1 ⊢
    obtain ⟨j, r1, r2, rfl⟩ := hl1
    have q1 := hmono _ _ (r1 hf)
    have q2 := hmono _ _ r2.le
    refine ⟨fun h => w12.mpr (by omega), fun h => ?_⟩
    rw [Bool.eq_false_iff]
    intro hb
    have := w12.mp hb
    omega

/-- The next `n` iterations with their times. -/
def DriverThread.timed : Nat → DriverThread σ L → Env → Nat → List (TimedIteration σ L) × Nat × DriverThread σ L
  | 0, t, _, k => ([], k, t)
  | n + 1, t, e, k =>
    match t.iterate e k with
    | (t₁, some i, k₁) =>
      match t₁.timed n e k₁ with
      | (tl, k₂, t₂) => (⟨k, i, k₁⟩ :: tl, k₂, t₂)
    | (t₁, none, k₁) => t₁.timed n e k₁

theorem DriverTimeline.ofTimed (n : Nat) (t : DriverThread σ L) (e : Env) (k : Nat) :
    DriverTimeline e k t (t.timed n e k).1 (t.timed n e k).2.1 (t.timed n e k).2.2 := by
  induction n generalizing t k with
  | zero => exact .nil le_rfl
  | succ n ih =>
    rw [DriverThread.timed]
    rcases h : t.iterate e k with ⟨t₁, i, k₁⟩
    cases i with
    | none => exact .over le_rfl h (ih t₁ k₁)
    | some i => exact .iteration le_rfl h (ih t₁ k₁)

/-! ## The violation

A driver without any processors. After a while somebody asks for a snapshot. -/

def quietPrograms : List (SendThread (DriverMsg Empty Nat)) := [{ todo := [.getSnapshot 1 false] }]

def quietDriver : DriverThread Empty Nat :=
  .running { state := measuredState.1
             receiver := { chan := .fresh none true quietPrograms, ahead := List.replicate 12 [] ++ [[0]] } }

def quietLog : List (TimedIteration Empty Nat) := (quietDriver.timed 7 ticking measuredState.2).1

/-- More than 60 seconds after the creation of a driver, and although nothing was ever observed, the alarm is off. -/
theorem C56_violated : ∃ (t t' : DriverThread Empty Nat) (k k' : Nat) (before after : List (TimedIteration Empty Nat)) (x : TimedIteration Empty Nat)
    (s front c : Snapshot) (id : Nat) (d : Bool),
    NewDriver ticking k (some "d") {} .processAll true quietPrograms t ∧
    DriverTimeline ticking k t (before ++ x :: after) k' t' ∧
    x.what.message = some (.getSnapshot id d) ∧ x.what.answer = some s ∧
    (∀ o ∈ runsOf (before.map TimedIteration.what), o = {}) ∧
    ticking.clock k + (60 * nanosPerSec : Nat) < ticking.clock x.start ∧
    s = grouped (some "d") (front ++ [("_metrix", .snapshot c)]) ∧ ("inactivity_alarm", .boolean false) ∈ c := by
  have hnew : NewDriver ticking measuredState.2 (some "d") {} .processAll true quietPrograms quietDriver :=
    ⟨0, measuredState.1, _, _, (Option.some_get (measured_some .processAll)).symm, rfl⟩
  have hlife : DriverTimeline ticking measuredState.2 quietDriver quietLog _ _ := .ofTimed 7 quietDriver ticking _
  have h1 : quietLog.length = 7 ∧ runsOf ((quietLog.take 6).map TimedIteration.what) = List.replicate 6 {} ∧
      (quietLog[6]?.map fun x => (x.what.message.map fun m => requests [m], x.what.answer.isSome)) = some (some [1], true) ∧
      ((lastRunWith (fun _ => true) (quietLog.take 6)).map fun y => y.start) = some 99 ∧
      (quietLog[6]?.map fun x => (x.start, x.stop)) = some (115, 163) ∧ measuredState.2 = 19 := by decide +kernel
  obtain ⟨hlen, hruns, hx, hlast, htimes, hk⟩ := h1
  have hsplit : quietLog = quietLog.take 6 ++ quietLog[6]'(by omega) :: quietLog.drop 7 := by
    conv_lhs => rw [← List.take_append_drop 6 quietLog, List.drop_eq_getElem_cons (by omega)]
  rw [List.getElem?_eq_getElem (by omega)] at hx htimes
  generalize quietLog[6]'(by omega) = x at hx hsplit htimes
  simp only [Option.map_some, Option.some.injEq, Prod.mk.injEq] at hx htimes
  obtain ⟨s, hs⟩ := Option.isSome_iff_exists.mp hx.2
  obtain ⟨m, hm, hr⟩ := Option.map_eq_some_iff.mp hx.1
  have hget : ∃ id d, m = .getSnapshot id d := by
    cases m <;> simp [requests] at hr ⊢
  obtain ⟨id, d, rfl⟩ := hget
  obtain ⟨y, hy, hstart⟩ := Option.map_eq_some_iff.mp hlast
  obtain ⟨front, c, on, hc, hin, hon⟩ := C56_partial ticking_mono emptyAllForward hnew hlife hsplit hm hs
  rw [hy] at hon
  have hclock : ticking.clock 163 < ticking.clock 99 + (60 * nanosPerSec : Nat) := by decide
  rw [hon.2 (by rw [htimes.2, hstart]; exact hclock)] at hin
  rw [hsplit] at hlife
  exact ⟨_, _, _, _, _, _, x, s, front, c, id, d, hnew, hlife, hm, hs, fun o ho => by
    rw [hruns] at ho; exact (List.mem_replicate.mp ho).2, by rw [htimes.1, hk]; decide, hc, hin⟩

end Metrix
