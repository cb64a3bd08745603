import Verif.Spec.Values

/-! # What a gauge shows -/

namespace Metrix

/-- What an update means to a gauge. -/
inductive Change
  | absolute (v : Int)
  | delta (d : Int)
  | nothing
  deriving DecidableEq

/-- What an update means to a gauge with the given display unit: durations and values that convert to
an `i64` are absolute values, changes are deltas. -/
def Update.change (unit : TimeUnit) : Update → Change
  | .withValue (.changedBy d) _ => .delta d
  | .withValue (.duration v u) _ => .absolute (displayed v u unit)
  | .withValue v _ => match v.convertToI64 with
    | some n => .absolute n
    | none => .nothing
  | .observation _ => .nothing
  | .observations _ _ => .nothing

/-- What a gauge that initially showed `initial` shows after some changes, the **newest first**: the last
absolute value plus all deltas after it; deltas without a value before them start from zero. -/
def gaugeShows (initial : Option Int) : List Change → Option Int
  | [] => initial
  | .absolute v :: _ => some v
  | .delta d :: older => some ((gaugeShows initial older).getD 0 + d)
  | .nothing :: older => gaugeShows initial older

/-- The delta of a change. -/
def Change.deltaOf : Change → Int
  | .delta d => d
  | _ => 0

/-- No absolute value. -/
def Change.isRelative : Change → Bool
  | .absolute _ => false
  | _ => true

/-- The closed form of `gaugeShows`: after the last absolute value `v` only deltas count. -/
theorem gaugeShows_last_absolute (initial : Option Int) (newer older : List Change) (v : Int)
    (h : ∀ c ∈ newer, c.isRelative = true) :
    gaugeShows initial (newer ++ .absolute v :: older) = some (v + (newer.map Change.deltaOf).sum) := by
  induction newer with
  | nil => simp [gaugeShows]
  | cons c cs ih =>
    have ih := ih fun c hc => h c (List.mem_cons_of_mem _ hc)
    cases c with
    | absolute => simpa [Change.isRelative] using h _ (List.mem_cons_self)
    | delta d => simp [gaugeShows, ih, Change.deltaOf]; omega
    | nothing => simp [gaugeShows, ih, Change.deltaOf]

/-- Without any absolute value: nothing is shown until there is a delta, then the sum of the deltas. -/
theorem gaugeShows_only_deltas (cs : List Change) (h : ∀ c ∈ cs, c.isRelative = true) :
    gaugeShows none cs =
      if ∀ c ∈ cs, c = .nothing then none else some (cs.map Change.deltaOf).sum := by
  induction cs with
  | nil => simp [gaugeShows]
  | cons c cs ih =>
    have ih := ih fun c hc => h c (List.mem_cons_of_mem _ hc)
    cases c with
    | absolute => simpa [Change.isRelative] using h _ (List.mem_cons_self)
    | delta d =>
      simp only [gaugeShows, ih]
      split
      · rename_i hall
        have h0 : (cs.map Change.deltaOf).sum = 0 := by
          rw [List.map_congr_left (g := fun _ => (0 : Int)) (fun c hc => by rw [hall c hc]; rfl)]
          simp
        simp [h0, Change.deltaOf]
      · simp [Change.deltaOf]; omega
    | nothing => simp [gaugeShows, ih, Change.deltaOf]

end Metrix
