import Verif.Spec.Meter

/-! # What a histogram contains

A histogram accepts the updates that have a value in its display unit (`Update.metered`). -/

namespace Metrix

/-- The values accepted in a log, oldest first. -/
def acceptedValues (unit : TimeUnit) (log : List (Event Update)) : List Int :=
  (inputs log).filterMap (Update.metered unit)

/-- When the last value was accepted, `last` if there is none in the log. -/
def lastAccepted (clock : Nat → Int) (unit : TimeUnit) (last : Int) (log : List (Event Update)) : Int :=
  ((marks clock (Update.metered unit) log).getLast?.map (·.time)).getD last

/-- There is a gap before event `ev`, which comes after `before`: it is an update that arrives more than `d` after
the last accepted value. -/
def GapBefore (clock : Nat → Int) (unit : TimeUnit) (d : Nat) (last : Int) (before : List (Event Update))
    (ev : Event Update) : Prop :=
  (∃ u, ev.op = .input u) ∧ lastAccepted clock unit last before + d < clock ev.start

/-- No update in `log`, which comes after `before`, has a gap before it. -/
def NoGap (clock : Nat → Int) (unit : TimeUnit) (d : Nat) (last : Int) (before log : List (Event Update)) : Prop :=
  ∀ l₁ ev l₂, log = l₁ ++ ev :: l₂ → ¬ GapBefore clock unit d last (before ++ l₁) ev

/-- The items of a histogram that was fed with the given values; `stats` are the statistics of the reservoir. -/
def histogramItems (stats : HistStats) (values : List Int) : Snapshot :=
  if values.length = 0 then [("count", .uint 0)]
  else [("count", .uint values.length), ("max", .int stats.max), ("min", .int stats.min), ("mean", .float stats.mean),
    ("stddev", .float stats.stddev),
    ("quantiles", .snapshot [("p25", .int stats.p25), ("p50", .int stats.p50), ("p75", .int stats.p75),
      ("p95", .int stats.p95), ("p98", .int stats.p98), ("p99", .int stats.p99), ("p999", .int stats.p999)])]

/-- The two items that tell whether something is active. -/
def activityItems (active : Bool) : Snapshot := [("_inactive", .boolean !active), ("_active", .boolean active)]

end Metrix
