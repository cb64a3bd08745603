import Verif.Spec.Exhibits
import Verif.Spec.Processing

/-!
# Components without what they have measured

`bare` keeps everything that was configured: names, titles, descriptions, label filters, limits, units, the number of seconds
that are tracked, and which component is where. What was measured, and when, is replaced by fixed values. The inner state of
user defined components is replaced by `()`.
-/

namespace Metrix
variable {σ L : Type}

def Counter.bare (c : Counter) : Counter := { c with count := 0 }

/-- The ring keeps its length. -/
def SecondsBuckets.bare (b : SecondsBuckets Bucket) : SecondsBuckets Bucket :=
  { buckets := List.replicate b.buckets.length default, currentTime := 0, currentIdx := 0 }

def Gauge.bare (g : Gauge) : Gauge := { g with value := none, tracking := g.tracking.map (·.bare) }

/-- The weights and the start of the measurement stay. -/
def StdMeter.bare (m : StdMeter) : StdMeter :=
  { count := 0, ewma1 := .new m.ewma1.alpha, ewma5 := .new m.ewma5.alpha, ewma15 := .new m.ewma15.alpha, nextTick := 0
    start := m.start }

def Meter.bare (m : Meter) : Meter := { m with lastTick := 0, inner := m.inner.bare }

def ValueMeter.bare (m : ValueMeter) : ValueMeter := { m with meter := m.meter.bare }

def Histogram.bare (h : Histogram) : Histogram := { h with inner := [], lastUpdate := 0 }

def Flag.bare (f : Flag) : Flag := { f with state := none }

def StaircaseTimer.bare (t : StaircaseTimer) : StaircaseTimer := { t with stayOnUntil := none }

def OccurrenceIndicator.bare (i : OccurrenceIndicator) : OccurrenceIndicator := { i with happenedLast := 0 }

def NonOccurrenceIndicator.bare (i : NonOccurrenceIndicator) : NonOccurrenceIndicator := { i with happenedLast := 0 }

def DataDisplay.bare (d : DataDisplay) : DataDisplay := { d with value := none, stayOnUntil := none }

def LastOccurrenceTracker.bare (t : LastOccurrenceTracker) : LastOccurrenceTracker := { t with happenedLast := none }

def Instrument.bare : Instrument σ → Instrument Unit
  | .counter i => .counter i.bare
  | .gauge i => .gauge i.bare
  | .meter i => .meter i.bare
  | .valueMeter i => .valueMeter i.bare
  | .histogram i => .histogram i.bare
  | .flag i => .flag i.bare
  | .staircaseTimer i => .staircaseTimer i.bare
  | .occurrenceIndicator i => .occurrenceIndicator i.bare
  | .nonOccurrenceIndicator i => .nonOccurrenceIndicator i.bare
  | .dataDisplay i => .dataDisplay i.bare
  | .lastOccurrenceTracker i => .lastOccurrenceTracker i.bare
  | .custom _ => .custom ()

def GaugeAdapter.bare (a : GaugeAdapter L) : GaugeAdapter L := { a with gauge := a.gauge.bare }

def Activity.bare (a : Activity) : Activity := { a with lastActivity := 0 }

def PanelHead.bare (h : PanelHead L) : PanelHead L :=
  { h with
    counter := h.counter.map (·.map Counter.bare)
    gauge := h.gauge.map GaugeAdapter.bare
    meter := h.meter.map (·.map Meter.bare)
    histogram := h.histogram.map (·.map Histogram.bare)
    activity := h.activity.bare }

def CockpitHead.bare (h : CockpitHead) : CockpitHead := { h with activity := h.activity.bare }

mutual
def Panel.bare : Panel σ L → Panel Unit L
  | .mk h ps hs ss => .mk h.bare (barePanels ps) (bareHandlers hs) (bareSnapshooters ss)

def barePanels : List (Panel σ L) → List (Panel Unit L)
  | [] => []
  | p :: ps => p.bare :: barePanels ps

def Handler.bare : Handler σ L → Handler Unit L
  | .instrument a => .instrument (a.map Instrument.bare)
  | .gauge a => .gauge a.bare
  | .panel p => .panel p.bare
  | .cockpit h ps hs ss => .cockpit h.bare (barePanels ps) (bareHandlers hs) (bareSnapshooters ss)
  | .custom _ => .custom ()

def bareHandlers : List (Handler σ L) → List (Handler Unit L)
  | [] => []
  | h :: hs => h.bare :: bareHandlers hs

def Snapshooter.bare : Snapshooter σ L → Snapshooter Unit L
  | .constant n d v => .constant n d v
  | .polling n d g poll => .polling n d g poll.bare
  | .instrument i => .instrument i.bare
  | .handler h => .handler h.bare
  | .custom _ => .custom ()

def bareSnapshooters : List (Snapshooter σ L) → List (Snapshooter Unit L)
  | [] => []
  | s :: ss => s.bare :: bareSnapshooters ss
end

def Cockpit.bare (c : Cockpit σ L) : Cockpit Unit L where
  head := c.head.bare
  panels := barePanels c.panels
  handlers := bareHandlers c.handlers
  snapshooters := bareSnapshooters c.snapshooters

def ProcessorState.bare (s : ProcessorState σ L) : ProcessorState Unit L where
  name := s.name
  descr := s.descr
  cockpits := s.cockpits.map Cockpit.bare
  handlers := bareHandlers s.handlers
  snapshooters := bareSnapshooters s.snapshooters
  activity := s.activity.bare

/-- The messages without what was measured by the components in them. -/
def Message.bare : Message σ L → Message Unit L
  | .observation o => .observation o
  | .addCockpit c => .addCockpit c.bare
  | .removeCockpit n => .removeCockpit n
  | .addHandler h => .addHandler h.bare
  | .addPanelToCockpit n p => .addPanelToCockpit n p.bare
  | .removePanelFromCockpit n q => .removePanelFromCockpit n q

/-- The calls without what was measured by the components in them. -/
def Call.bare : Call σ L → Call Unit L
  | .process max s => .process max s
  | .snapshot into d => .snapshot into d
  | .addCockpit c => .addCockpit c.bare
  | .addHandler h => .addHandler h.bare
  | .addSnapshooter x => .addSnapshooter x.bare
  | .setName n => .setName n
  | .setInactivityLimit d => .setInactivityLimit d
  | .setShowActivityState b => .setShowActivityState b

/-- The call configures the processor: it is neither a run nor a snapshot. -/
def Call.isSetting : Call σ L → Bool
  | .process _ _ => false
  | .snapshot _ _ => false
  | _ => true

/-- The message configures the processor: it is not an observation. -/
def Message.isSetting : Message σ L → Bool
  | .observation _ => false
  | _ => true

/-- Something that configures a processor: a call of its owner or a message. -/
inductive Setting (L : Type)
  | call (c : Call Unit L)
  | message (m : Message Unit L)

/-- What configured a processor, in that order: the calls of the owner, and the messages that were consumed in the course
of the calls. -/
def settingsIn : List (Called σ L) → List (List (Message σ L)) → List (Setting L)
  | c :: log, ms :: consumed =>
    (if c.call.isSetting then [Setting.call c.call.bare] else []) ++
      (ms.filter (·.isSetting)).map (fun m => Setting.message m.bare) ++ settingsIn log consumed
  | _, _ => []

/-- What a setting does. -/
def ProcessorState.withSetting (s : ProcessorState Unit L) : Setting L → ProcessorState Unit L
  | .call c => s.set c
  | .message m => s.configured m

/-- The things that are shown, without what they have measured. -/
def Exhibit.bare (x : Exhibit (Snapshooter σ L)) : Exhibit (Snapshooter Unit L) :=
  ⟨x.path, x.around.map Activity.bare, x.thing.bare⟩

end Metrix
