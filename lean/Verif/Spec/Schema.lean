import Verif.Model.Driver

/-!
# The schema of a snapshot

Which items a component may put, in which order and of which kinds, according to its configuration alone: names, titles,
descriptions, limits, and which parts there are. Nothing that was measured plays a role.
-/

namespace Metrix
variable {σ L : Type}

/-- The kinds of values. -/
inductive Kind
  | text | boolean | float | uint | int
  deriving DecidableEq

/-- The kind of a value; a snapshot is a group, not a value. -/
def ItemKind.kind : ItemKind → Option Kind
  | .text _ => some .text
  | .boolean _ => some .boolean
  | .float _ => some .float
  | .uint _ => some .uint
  | .int _ => some .int
  | .snapshot _ => none

/-- A part of a schema.
* `value`: an item with that name and a value of one of the kinds
* `fixed`: exactly that item
* `any`: an item with that name
* `group`: an item with that name, which is a group with that schema
* `either`: one of two alternatives -/
inductive Slot
  | value (name : String) (kinds : List Kind)
  | fixed (name : String) (v : ItemKind)
  | any (name : String)
  | group (name : String) (slots : List Slot)
  | either (a b : List Slot)

/-- All of them, or nothing. -/
abbrev Slot.maybe (a : List Slot) : Slot := .either a []

mutual
/-- The item is as the slot says. -/
inductive Slot.Admits : Slot → String → ItemKind → Prop
  | value {n : String} {kinds : List Kind} {v : ItemKind} {k : Kind} (hv : v.kind = some k) (hk : k ∈ kinds) :
      Slot.Admits (.value n kinds) n v
  | fixed {n : String} {v : ItemKind} : Slot.Admits (.fixed n v) n v
  | any {n : String} {v : ItemKind} : Slot.Admits (.any n) n v
  | group {n : String} {slots : List Slot} {s : Snapshot} (h : Conforms slots s) : Slot.Admits (.group n slots) n (.snapshot s)

/-- The items are as the slots say, one after the other; there are no others and none is missing. -/
inductive Conforms : List Slot → Snapshot → Prop
  | nil : Conforms [] []
  | item {x : Slot} {xs : List Slot} {n : String} {v : ItemKind} {s : Snapshot} (h : x.Admits n v) (hs : Conforms xs s) :
      Conforms (x :: xs) ((n, v) :: s)
  | left {a b xs : List Slot} {s t : Snapshot} (h : Conforms a s) (ht : Conforms xs t) : Conforms (.either a b :: xs) (s ++ t)
  | right {a b xs : List Slot} {s t : Snapshot} (h : Conforms b s) (ht : Conforms xs t) : Conforms (.either a b :: xs) (s ++ t)
end

mutual
/-- The largest number of items. -/
def Slot.width : Slot → Nat
  | .either a b => max (width a) (width b)
  | _ => 1

def width : List Slot → Nat
  | [] => 0
  | x :: xs => x.width + width xs
end

mutual
/-- The names of the items. -/
def Slot.names : Slot → List String
  | .value n _ => [n]
  | .fixed n _ => [n]
  | .any n => [n]
  | .group n _ => [n]
  | .either a b => namesIn a ++ namesIn b

def namesIn : List Slot → List String
  | [] => []
  | x :: xs => x.names ++ namesIn xs
end

mutual
/-- All slots for items, from whichever alternative. -/
def Slot.flat : Slot → List Slot
  | .either a b => flatSlots a ++ flatSlots b
  | .value n kinds => [.value n kinds]
  | .fixed n v => [.fixed n v]
  | .any n => [.any n]
  | .group n slots => [.group n slots]

def flatSlots : List Slot → List Slot
  | [] => []
  | x :: xs => x.flat ++ flatSlots xs
end

/-! ## Instruments -/

/-- Each text is shown if there is no item of that name already. -/
def textSlot (label : String) : Option String → List Slot
  | none => []
  | some t => [.maybe [.fixed label (.text t)]]

/-- The texts of a group. -/
def Descr.slots (t : Descr) (d : Bool) : List Slot :=
  if d then textSlot "_title" t.title ++ textSlot "_description" t.description else []

/-- The texts of an instrument of that name. -/
def Descr.slotsFor (t : Descr) (n : String) (d : Bool) : List Slot :=
  if d then textSlot ("_title_" ++ n) t.title ++ textSlot ("_description_" ++ n) t.description else []

def Counter.slots (c : Counter) (d : Bool) : List Slot := c.descr.slotsFor c.name d ++ [.value c.name [.uint]]

/-- What a gauge shows about the last seconds. -/
def trackingSlots (pre : String) : List Slot :=
  [.value (pre ++ "peak") [.int], .value (pre ++ "peak_min") [.int], .value (pre ++ "peak_avg") [.float],
   .value (pre ++ "bottom") [.int], .value (pre ++ "bottom_max") [.int], .value (pre ++ "bottom_avg") [.float],
   .value (pre ++ "avg") [.float]]

/-- A gauge shows all of its values or, as long as it has none, nothing. -/
def Gauge.slots (g : Gauge) (d : Bool) : List Slot :=
  let tracking (pre : String) := if g.tracking.isSome then trackingSlots pre else []
  g.descr.slotsFor g.name d ++
    if g.groupValues then [.group g.name [.maybe (.value "current" [.int] :: tracking "")]]
    else [.maybe (.value g.name [.int] :: tracking (g.name ++ "_"))]

def rateSlots (n : String) (shown : Bool) : List Slot := if shown then [.group n [.value "rate" [.float]]] else []

def Meter.slots (m : Meter) (d : Bool) : List Slot :=
  m.descr.slotsFor m.name d ++
    [.group m.name (.value "count" [.uint] :: rateSlots "one_minute" m.oneMinute ++ rateSlots "five_minutes" m.fiveMinutes ++
      rateSlots "fifteen_minutes" m.fifteenMinutes)]

/-- A group with an inactivity limit shows whether it is active, and the contents only if it is. -/
def activeOr (contents : List Slot) : List Slot :=
  [.either [.fixed "_inactive" (.boolean true), .fixed "_active" (.boolean false)]
    (.fixed "_inactive" (.boolean false) :: .fixed "_active" (.boolean true) :: contents)]

def statisticsSlots : List Slot :=
  [.value "max" [.int], .value "min" [.int], .value "mean" [.float], .value "stddev" [.float],
   .group "quantiles" (["p25", "p50", "p75", "p95", "p98", "p99", "p999"].map fun n => .value n [.int])]

/-- There are statistics only if there are values. -/
def Histogram.valueSlots : List Slot := [.value "count" [.uint], .maybe statisticsSlots]

def Histogram.slots (h : Histogram) (d : Bool) : List Slot :=
  h.descr.slotsFor h.name d ++ [.group h.name
    (if h.maxInactivity.isSome then
      if h.showActivityState then activeOr valueSlots else [.maybe valueSlots]
    else valueSlots)]

/-- A switch and its inverse. -/
def switchSlots (n : String) (inverted : Option NameAlternation) : List Slot :=
  .value n [.boolean] :: match inverted with
    | none => []
    | some a => [.value (a.adjustName n) [.boolean]]

def Flag.slots (f : Flag) (d : Bool) : List Slot :=
  f.descr.slotsFor f.name d ++ [.maybe (switchSlots f.name f.showInverted)]

def StaircaseTimer.slots (t : StaircaseTimer) (d : Bool) : List Slot :=
  t.descr.slotsFor t.name d ++ switchSlots t.name t.showInverted

def OccurrenceIndicator.slots (t : OccurrenceIndicator) (d : Bool) : List Slot :=
  t.descr.slotsFor t.name d ++ switchSlots t.name t.showInverted

def NonOccurrenceIndicator.slots (t : NonOccurrenceIndicator) (d : Bool) : List Slot :=
  t.descr.slotsFor t.name d ++ switchSlots t.name t.showInverted

/-- A display shows a value of whatever kind. -/
def DataDisplay.slots (t : DataDisplay) (d : Bool) : List Slot := t.descr.slotsFor t.name d ++ [.maybe [.any t.name]]

/-- The seconds are unsigned, the zero instead of nothing is signed. -/
def LastOccurrenceTracker.slots (t : LastOccurrenceTracker) (d : Bool) : List Slot :=
  t.descr.slotsFor t.name d ++
    [.either [.value t.name [.uint]] (if t.makeNoneZero then [.fixed t.name (.int 0)] else [])]

/-- `u` is the schema of the user defined components. -/
def Instrument.slots (u : Bool → List Slot) (d : Bool) : Instrument σ → List Slot
  | .counter i => i.slots d
  | .gauge i => i.slots d
  | .meter i => i.slots d
  | .valueMeter i => i.meter.slots d
  | .histogram i => i.slots d
  | .flag i => i.slots d
  | .staircaseTimer i => i.slots d
  | .occurrenceIndicator i => i.slots d
  | .nonOccurrenceIndicator i => i.slots d
  | .dataDisplay i => i.slots d
  | .lastOccurrenceTracker i => i.slots d
  | .custom _ => u d

/-! ## Groups -/

/-- The contents are in a group if there is a name. -/
def inGroup (name : Option String) (slots : List Slot) : List Slot :=
  match name with
  | some n => [.group n slots]
  | none => slots

/-- With an inactivity limit the contents are not always there. Without flags that tell so they always are. -/
def Activity.slots (a : Activity) (contents : List Slot) : List Slot :=
  if a.maxInactivity.isSome && a.show_ then activeOr contents else contents

def PanelHead.slots (d : Bool) (h : PanelHead L) : List Slot :=
  h.counter.toList.flatMap (·.instrument.slots d) ++ h.gauge.toList.flatMap (·.gauge.slots d) ++
    h.meter.toList.flatMap (·.instrument.slots d) ++ h.histogram.toList.flatMap (·.instrument.slots d)

mutual
def Panel.slots (u : Bool → List Slot) (d : Bool) : Panel σ L → List Slot
  | .mk h ps hs ss =>
    inGroup h.name (h.descr.slots d ++ h.activity.slots
      (h.slots d ++ panelSlots u d ps ++ snapshooterSlots u d ss ++ handlerSlots u d hs))

def panelSlots (u : Bool → List Slot) (d : Bool) : List (Panel σ L) → List Slot
  | [] => []
  | p :: ps => p.slots u d ++ panelSlots u d ps

def Handler.slots (u : Bool → List Slot) (d : Bool) : Handler σ L → List Slot
  | .instrument a => a.instrument.slots u d
  | .gauge a => a.gauge.slots d
  | .panel p => p.slots u d
  | .cockpit h ps hs ss =>
    inGroup h.name (h.descr.slots d ++ h.activity.slots
      (panelSlots u d ps ++ handlerSlots u d hs ++ snapshooterSlots u d ss))
  | .custom _ => u d

def handlerSlots (u : Bool → List Slot) (d : Bool) : List (Handler σ L) → List Slot
  | [] => []
  | h :: hs => h.slots u d ++ handlerSlots u d hs

def Snapshooter.slots (u : Bool → List Slot) (d : Bool) : Snapshooter σ L → List Slot
  | .constant n t v => t.slotsFor n d ++ [.fixed n v]
  | .polling n t g poll => t.slotsFor n d ++ if g then [.group n (poll.slots u d)] else poll.slots u d
  | .instrument i => i.slots u d
  | .handler h => h.slots u d
  | .custom _ => u d

def snapshooterSlots (u : Bool → List Slot) (d : Bool) : List (Snapshooter σ L) → List Slot
  | [] => []
  | s :: ss => s.slots u d ++ snapshooterSlots u d ss
end

def Cockpit.slots (u : Bool → List Slot) (d : Bool) (c : Cockpit σ L) : List Slot :=
  inGroup c.head.name (c.head.descr.slots d ++ c.head.activity.slots
    (panelSlots u d c.panels ++ handlerSlots u d c.handlers ++ snapshooterSlots u d c.snapshooters))

def ProcessorState.slots (u : Bool → List Slot) (d : Bool) (s : ProcessorState σ L) : List Slot :=
  inGroup s.name (s.descr.slots d ++ s.activity.slots
    (s.cockpits.flatMap (·.slots u d) ++ handlerSlots u d s.handlers ++ snapshooterSlots u d s.snapshooters))

/-! ## Mounts and drivers -/

/-- The schemas of what the crate knows nothing about: of user defined components and processors, and of the answers of
drivers that are mounted. -/
structure Outside where
  components : Bool → List Slot
  processors : Bool → List Slot
  answers : Bool → List Slot

mutual
/-- A driver that is mounted may fail to answer. -/
def Node.slots (u : Outside) (d : Bool) : Node σ L → List Slot
  | .processor p => p.state.slots u.components d
  | .mount h ns ss =>
    inGroup h.name (h.descr.slots d ++ h.activity.slots (nodeSlots u d ns ++ snapshooterSlots u.components d ss))
  | .attached h ns ss _ =>
    inGroup h.name (h.descr.slots d ++ h.activity.slots (nodeSlots u d ns ++ snapshooterSlots u.components d ss))
  | .driver _ => [.maybe (u.answers d)]
  | .custom _ => u.processors d

def nodeSlots (u : Outside) (d : Bool) : List (Node σ L) → List Slot
  | [] => []
  | n :: ns => n.slots u d ++ nodeSlots u d ns
end

/-- What a meter of the driver shows. -/
def meterOf (n : String) : Slot :=
  .group n [.value "count" [.uint], .group "one_minute" [.value "rate" [.float]]]

/-- What a gauge of the driver shows. -/
def gaugeOf (n : String) : Slot := .group n [.maybe (.value "current" [.int] :: trackingSlots "")]

/-- What a histogram of the driver shows. -/
def histogramOf (n : String) : Slot := .group n Histogram.valueSlots

/-- The driver's own metrics. -/
def metricsSlots : List Slot :=
  [.group "_metrix"
    [meterOf "collections_per_second", histogramOf "collection_times_us",
     meterOf "observations_processed_per_second", histogramOf "observations_processed_per_collection",
     meterOf "observations_dropped_per_second", histogramOf "observations_dropped_per_collection",
     gaugeOf "observations_enqueued", meterOf "instruments_updated_per_second", meterOf "snapshots_per_second",
     histogramOf "snapshots_times_us", .value "dropped_observations_alarm" [.boolean], .value "inactivity_alarm" [.boolean],
     gaugeOf "iteration_update_ratio_per_mille", histogramOf "iteration_update_ratio_per_mille_histo"]]

/-- A snapshot of a driver. -/
def driverSlots (u : Outside) (d : Bool) (name : Option String) (descr : Descr) (processors : List (Node σ L))
    (snapshooters : List (Snapshooter σ L)) (withMetrics : Bool) : List Slot :=
  inGroup name (descr.slots d ++ nodeSlots u d processors ++ snapshooterSlots u.components d snapshooters ++
    if withMetrics then metricsSlots else [])

end Metrix
