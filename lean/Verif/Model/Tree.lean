import Verif.Model.Adapter

/-!
# Panels, cockpits, handlers and snapshooters: `src/instruments/panel.rs`, `src/cockpit.rs`,
`src/instruments/polled.rs`

The count of updated instruments is a `usize`. Its sums are exact here, overflow would need user
defined handlers that report more than 2^64 updates.
-/

namespace Metrix

/-- What is common to the activity tracking of `Panel`, `Cockpit`, `TelemetryProcessor` and
`ProcessorMount`: `src/instruments/panel.rs:62-64`, `src/cockpit.rs:22-24`. -/
structure Activity where
  lastActivity : Int
  maxInactivity : Option Nat := none
  show_ : Bool := true
  deriving DecidableEq

/-- The statements `src/instruments/panel.rs:282-297` and `src/cockpit.rs:218-233`: the flags are put, and the
result tells whether values are put as well. -/
def Activity.putFlags (a : Activity) (into : Snapshot) : M (Bool × Snapshot) :=
  match a.maxInactivity with
  | some d =>
    if a.show_ then do
      let now ← M.now
      if sinceNs now a.lastActivity > d then
        return (false, (into.push "_inactive" (.boolean true)).push "_active" (.boolean false))
      else
        return (true, (into.push "_inactive" (.boolean false)).push "_active" (.boolean true))
    else return (true, into)
  | none => return (true, into)

/-- `src/instruments/panel.rs:50-65` (`Panel`) without the panels, handlers and snapshooters in it. -/
structure PanelHead (L : Type) where
  labelFilter : LabelFilter L
  name : Option String := none
  descr : Descr := {}
  counter : Option (InstrumentAdapter L Counter) := none
  gauge : Option (GaugeAdapter L) := none
  meter : Option (InstrumentAdapter L Meter) := none
  histogram : Option (InstrumentAdapter L Histogram) := none
  activity : Activity

/-- `src/cockpit.rs:15-25` (`Cockpit`) without the panels, handlers and snapshooters in it. -/
structure CockpitHead where
  name : Option String := none
  descr : Descr := {}
  activity : Activity
  deriving DecidableEq

mutual
/-- `src/instruments/panel.rs:50-65` (`Panel`). -/
inductive Panel (σ L : Type)
  | mk (head : PanelHead L) (panels : List (Panel σ L)) (handlers : List (Handler σ L))
      (snapshooters : List (Snapshooter σ L))

/-- `Box<dyn HandlesObservations>`: everything in the crate that implements the trait, or a user defined
type. `cockpit` has the fields of `Cockpit` (`src/cockpit.rs:15-25`). -/
inductive Handler (σ L : Type)
  | instrument (a : InstrumentAdapter L (Instrument σ))
  | gauge (a : GaugeAdapter L)
  | panel (p : Panel σ L)
  | cockpit (head : CockpitHead) (panels : List (Panel σ L)) (handlers : List (Handler σ L))
      (snapshooters : List (Snapshooter σ L))
  | custom (s : σ)

/-- `Box<dyn PutsSnapshot>`: everything in the crate that implements the trait (except for processors,
mounts and drivers), or a user defined type.
* `constant` is `ConstantValue` (`src/instruments/polled.rs:111-116`)
* `polling` is `PollingInstrument` (`src/instruments/polled.rs:15-23`) -/
inductive Snapshooter (σ L : Type)
  | constant (name : String) (descr : Descr) (value : ItemKind)
  | polling (name : String) (descr : Descr) (createGroup : Bool) (poll : Snapshooter σ L)
  | instrument (i : Instrument σ)
  | handler (h : Handler σ L)
  | custom (s : σ)
end

/-- `src/cockpit.rs:15-25` (`Cockpit`). -/
structure Cockpit (σ L : Type) where
  head : CockpitHead
  panels : List (Panel σ L) := []
  handlers : List (Handler σ L) := []
  snapshooters : List (Snapshooter σ L) := []

variable {σ L : Type}

namespace Panel

def head : Panel σ L → PanelHead L
  | .mk h _ _ _ => h
def panels : Panel σ L → List (Panel σ L)
  | .mk _ ps _ _ => ps
def handlers : Panel σ L → List (Handler σ L)
  | .mk _ _ hs _ => hs
def snapshooters : Panel σ L → List (Snapshooter σ L)
  | .mk _ _ _ ss => ss

/-- `src/instruments/panel.rs:214-216` (`name`). -/
def name (p : Panel σ L) : Option String := p.head.name

/-- `src/instruments/panel.rs:73-90` (`new`); also `accept`, `accept_all` (102-104, 120-122). -/
def new (f : LabelFilter L) : M (Panel σ L) := do
  return .mk { labelFilter := f, activity := { lastActivity := ← M.now } } [] [] []

/-- `src/instruments/panel.rs:94-98` (`named`); also `accept_named`, `accept_all_named` (108-116). -/
def named (f : LabelFilter L) (name : String) : M (Panel σ L) := do
  let .mk h ps hs ss ← new f
  return .mk { h with name := some name } ps hs ss

/-- `src/instruments/panel.rs:221-223` (`set_name`). -/
def setName : Panel σ L → String → Panel σ L
  | .mk h ps hs ss, n => .mk { h with name := some n } ps hs ss

/-- `src/instruments/panel.rs:253-255` (`set_inactivity_limit`). -/
def setInactivityLimit : Panel σ L → Nat → Panel σ L
  | .mk h ps hs ss, d => .mk { h with activity := { h.activity with maxInactivity := some d } } ps hs ss

/-- `src/instruments/panel.rs:262-264` (`set_show_activity_state`). -/
def setShowActivityState : Panel σ L → Bool → Panel σ L
  | .mk h ps hs ss, b => .mk { h with activity := { h.activity with show_ := b } } ps hs ss

/-- `src/instruments/panel.rs:204-206` (`add_handler`). -/
def addHandler : Panel σ L → Handler σ L → Panel σ L
  | .mk h ps hs ss, x => .mk h ps (hs ++ [x]) ss

/-- `src/instruments/panel.rs:195-197` (`add_panel`). -/
def addPanel : Panel σ L → Panel σ L → Panel σ L
  | .mk h ps hs ss, x => .mk h (ps ++ [x]) hs ss

/-- `src/instruments/panel.rs:176-178` (`add_snapshooter`). -/
def addSnapshooter : Panel σ L → Snapshooter σ L → Panel σ L
  | .mk h ps hs ss, x => .mk h ps hs (ss ++ [x])

end Panel

/-- Change the type of the instrument in an adapter: `Box::new(adapter)` as a trait object. -/
def InstrumentAdapter.map {I J : Type} (a : InstrumentAdapter L I) (f : I → J) :
    InstrumentAdapter L J :=
  { labelFilter := a.labelFilter, instrument := f a.instrument, modifyUpdate := a.modifyUpdate }

namespace Panel

/-- `src/instruments/panel.rs:124-130` (`add_counter`). -/
def addCounter (p : Panel σ L) (a : InstrumentAdapter L Counter) : Panel σ L :=
  match p with
  | .mk h ps hs ss =>
    if h.counter.isNone then .mk { h with counter := some a } ps hs ss
    else p.addHandler (.instrument (a.map .counter))

/-- `src/instruments/panel.rs:142-148` (`add_gauge`). -/
def addGauge (p : Panel σ L) (a : GaugeAdapter L) : Panel σ L :=
  match p with
  | .mk h ps hs ss =>
    if h.gauge.isNone then .mk { h with gauge := some a } ps hs ss
    else p.addHandler (.gauge a)

/-- `src/instruments/panel.rs:155-161` (`add_meter`). -/
def addMeter (p : Panel σ L) (a : InstrumentAdapter L Meter) : Panel σ L :=
  match p with
  | .mk h ps hs ss =>
    if h.meter.isNone then .mk { h with meter := some a } ps hs ss
    else p.addHandler (.instrument (a.map .meter))

/-- `src/instruments/panel.rs:163-169` (`add_histogram`). -/
def addHistogram (p : Panel σ L) (a : InstrumentAdapter L Histogram) : Panel σ L :=
  match p with
  | .mk h ps hs ss =>
    if h.histogram.isNone then .mk { h with histogram := some a } ps hs ss
    else p.addHandler (.instrument (a.map .histogram))

/-- `src/instruments/panel.rs:185-188` (`add_instrument`). -/
def addInstrument (p : Panel σ L) (i : Instrument σ) : Panel σ L :=
  p.addHandler (.instrument (InstrumentAdapter.new i))

/-- `src/instruments/panel.rs:276-278` (`accepts_label`). -/
def acceptsLabel [DecidableEq L] (p : Panel σ L) (label : L) : Bool := p.head.labelFilter.accepts label

end Panel

/-! ## Observations -/

/-- `x.iter_mut().for_each(|x| instruments_updated += x.handle_observation(..))` for an `Option` slot of
a panel (`src/instruments/panel.rs:355-366`). -/
def handleSlot {A : Type} (f : A → M (A × Nat)) : Option A → M (Option A × Nat)
  | none => return (none, 0)
  | some a => do
    let (a, n) ← f a
    return (some a, n)

/-- The four slots of a panel, `src/instruments/panel.rs:355-366`. -/
def PanelHead.handle [DecidableEq L] (h : PanelHead L) (o : Observation L) : M (PanelHead L × Nat) := do
  let (counter, n₁) ← handleSlot (·.handle IsInstrument.update o) h.counter
  let (gauge, n₂) ← handleSlot (·.handle o) h.gauge
  let (meter, n₃) ← handleSlot (·.handle IsInstrument.update o) h.meter
  let (histogram, n₄) ← handleSlot (·.handle IsInstrument.update o) h.histogram
  return ({ h with counter, gauge, meter, histogram }, n₁ + n₂ + n₃ + n₄)

variable [DecidableEq L] [Custom σ L]

mutual
/-- `src/instruments/panel.rs:348-375` (`HandlesObservations for Panel`). -/
def Panel.handle (o : Observation L) : Panel σ L → M (Panel σ L × Nat)
  | .mk h ps hs ss =>
    if h.labelFilter.accepts o.label then do
      let (h, n₁) ← h.handle o
      let (ps, n₂) ← handlePanels o ps
      let (hs, n₃) ← handleHandlers o hs
      return (.mk h ps hs ss, n₁ + n₂ + n₃)
    else return (.mk h ps hs ss, 0)

/-- The loops `src/instruments/panel.rs:367-369` and `src/cockpit.rs:299-301`. -/
def handlePanels (o : Observation L) : List (Panel σ L) → M (List (Panel σ L) × Nat)
  | [] => return ([], 0)
  | p :: ps => do
    let (p, n) ← p.handle o
    let (ps, m) ← handlePanels o ps
    return (p :: ps, n + m)

/-- Dynamic dispatch of `handle_observation`. The `cockpit` case is `src/cockpit.rs:290-304`
(`HandlesObservations for Cockpit`). -/
def Handler.handle (o : Observation L) : Handler σ L → M (Handler σ L × Nat)
  | .instrument a => do
    let (a, n) ← a.handle (Instrument.update L) o
    return (.instrument a, n)
  | .gauge a => do
    let (a, n) ← a.handle o
    return (.gauge a, n)
  | .panel p => do
    let (p, n) ← p.handle o
    return (.panel p, n)
  | .cockpit h ps hs ss => do
    let now ← M.now
    let (hs, n₁) ← handleHandlers o hs
    let (ps, n₂) ← handlePanels o ps
    return (.cockpit { h with activity := { h.activity with lastActivity := now } } ps hs ss, n₁ + n₂)
  | .custom s => do
    let (s, n) ← Custom.handle s o
    return (.custom s, n)

/-- The loops `src/instruments/panel.rs:370-372` and `src/cockpit.rs:295-297`. -/
def handleHandlers (o : Observation L) : List (Handler σ L) → M (List (Handler σ L) × Nat)
  | [] => return ([], 0)
  | h :: hs => do
    let (h, n) ← h.handle o
    let (hs, m) ← handleHandlers o hs
    return (h :: hs, n + m)
end

/-! ## Snapshots -/

/-- `x.as_ref().iter().for_each(|x| x.put_snapshot(..))` for an `Option` slot of a panel
(`src/instruments/panel.rs:298-313`). -/
def putSlot {A : Type} (f : A → Snapshot → M (A × Snapshot)) (a : Option A) (into : Snapshot) :
    M (Option A × Snapshot) :=
  match a with
  | none => return (none, into)
  | some a => do
    let (a, into) ← f a into
    return (some a, into)

/-- The four slots of a panel, `src/instruments/panel.rs:298-313`. -/
def PanelHead.putSlots {L : Type} (h : PanelHead L) (into : Snapshot) (d : Bool) :
    M (PanelHead L × Snapshot) := do
  let (counter, into) ← putSlot (fun a s => a.putSnapshot IsInstrument.putSnapshot s d) h.counter into
  let (gauge, into) ← putSlot (fun a s => a.putSnapshot s d) h.gauge into
  let (meter, into) ← putSlot (fun a s => a.putSnapshot IsInstrument.putSnapshot s d) h.meter into
  let (histogram, into) ←
    putSlot (fun a s => a.putSnapshot IsInstrument.putSnapshot s d) h.histogram into
  return ({ h with counter, gauge, meter, histogram }, into)

/-- The values go to a new level if there is a name (`src/instruments/panel.rs:331-338`,
`src/cockpit.rs:254-261`): the snapshot to write to. -/
def levelFor (name : Option String) (into : Snapshot) : Snapshot :=
  match name with
  | some _ => []
  | none => into

/-- The values were written to `level` (`src/instruments/panel.rs:331-338`, `src/cockpit.rs:254-261`): the
result. -/
def closeLevel (name : Option String) (into level : Snapshot) : Snapshot :=
  match name with
  | some n => into.push n (.snapshot level)
  | none => level

omit [DecidableEq L] in
mutual
/-- `src/instruments/panel.rs:280-340` (`put_values_into_snapshot`, `PutsSnapshot for Panel`). -/
def Panel.putSnapshot (d : Bool) : Panel σ L → Snapshot → M (Panel σ L × Snapshot)
  | .mk h ps hs ss, into => do
    let level := putDefaultDescriptives h.descr (levelFor h.name into) d
    let (go, level) ← h.activity.putFlags level
    if go then
      let (h, level) ← h.putSlots level d
      let (ps, level) ← putPanels d ps level
      let (ss, level) ← putSnapshooters d ss level
      let (hs, level) ← putHandlers d hs level
      return (.mk h ps hs ss, closeLevel h.name into level)
    else return (.mk h ps hs ss, closeLevel h.name into level)

/-- The loops `src/instruments/panel.rs:314-316` and `src/cockpit.rs:235-237`. -/
def putPanels (d : Bool) : List (Panel σ L) → Snapshot → M (List (Panel σ L) × Snapshot)
  | [], into => return ([], into)
  | p :: ps, into => do
    let (p, into) ← p.putSnapshot d into
    let (ps, into) ← putPanels d ps into
    return (p :: ps, into)

/-- Dynamic dispatch of `put_snapshot`. The `cockpit` case is `src/cockpit.rs:215-263`
(`put_values_into_snapshot`, `PutsSnapshot for Cockpit`). -/
def Handler.putSnapshot (d : Bool) : Handler σ L → Snapshot → M (Handler σ L × Snapshot)
  | .instrument a, into => do
    let (a, into) ← a.putSnapshot (Instrument.putSnapshot L) into d
    return (.instrument a, into)
  | .gauge a, into => do
    let (a, into) ← a.putSnapshot into d
    return (.gauge a, into)
  | .panel p, into => do
    let (p, into) ← p.putSnapshot d into
    return (.panel p, into)
  | .cockpit h ps hs ss, into => do
    let level := putDefaultDescriptives h.descr (levelFor h.name into) d
    let (go, level) ← h.activity.putFlags level
    if go then
      let (ps, level) ← putPanels d ps level
      let (hs, level) ← putHandlers d hs level
      let (ss, level) ← putSnapshooters d ss level
      return (.cockpit h ps hs ss, closeLevel h.name into level)
    else return (.cockpit h ps hs ss, closeLevel h.name into level)
  | .custom s, into => do
    let (s, into) ← Custom.putSnapshot L s into d
    return (.custom s, into)

/-- The loops `src/instruments/panel.rs:320-322` and `src/cockpit.rs:239-241`. -/
def putHandlers (d : Bool) : List (Handler σ L) → Snapshot → M (List (Handler σ L) × Snapshot)
  | [], into => return ([], into)
  | h :: hs, into => do
    let (h, into) ← h.putSnapshot d into
    let (hs, into) ← putHandlers d hs into
    return (h :: hs, into)

/-- Dynamic dispatch of `put_snapshot`. `polling` is `src/instruments/polled.rs:94-109`
(`PutsSnapshot for PollingInstrument`), `constant` is `src/instruments/polled.rs:156-161`
(`PutsSnapshot for ConstantValue`). -/
def Snapshooter.putSnapshot (d : Bool) : Snapshooter σ L → Snapshot → M (Snapshooter σ L × Snapshot)
  | .constant name descr value, into =>
    return (.constant name descr value,
      (putPostfixedDescriptives descr name into d).push name value)
  | .polling name descr createGroup poll, into => do
    let into := putPostfixedDescriptives descr name into d
    if createGroup then
      let (poll, newLevel) ← poll.putSnapshot d []
      return (.polling name descr createGroup poll, into.push name (.snapshot newLevel))
    else
      let (poll, into) ← poll.putSnapshot d into
      return (.polling name descr createGroup poll, into)
  | .instrument i, into => do
    let (i, into) ← i.putSnapshot L into d
    return (.instrument i, into)
  | .handler h, into => do
    let (h, into) ← h.putSnapshot d into
    return (.handler h, into)
  | .custom s, into => do
    let (s, into) ← Custom.putSnapshot L s into d
    return (.custom s, into)

/-- The loops `src/instruments/panel.rs:317-319` and `src/cockpit.rs:243-245`. -/
def putSnapshooters (d : Bool) : List (Snapshooter σ L) → Snapshot →
    M (List (Snapshooter σ L) × Snapshot)
  | [], into => return ([], into)
  | s :: ss, into => do
    let (s, into) ← s.putSnapshot d into
    let (ss, into) ← putSnapshooters d ss into
    return (s :: ss, into)
end

/-! ## Cockpits -/

namespace Cockpit
omit [DecidableEq L] [Custom σ L]

/-- The cockpit as a `Box<dyn HandlesObservations>`. -/
def toHandler (c : Cockpit σ L) : Handler σ L := .cockpit c.head c.panels c.handlers c.snapshooters

/-- `src/cockpit.rs:46-48, 265-282` (`without_name`, `Default`). -/
def withoutName : M (Cockpit σ L) := do
  return { head := { activity := { lastActivity := ← M.now } } }

/-- `src/cockpit.rs:36-40` (`new`). -/
def new (name : String) : M (Cockpit σ L) := do
  let c ← withoutName
  return { c with head := { c.head with name := some name } }

/-- `src/cockpit.rs:54-56` (`get_name`). -/
def name (c : Cockpit σ L) : Option String := c.head.name

/-- `src/cockpit.rs:59-61` (`set_name`). -/
def setName (c : Cockpit σ L) (n : String) : Cockpit σ L :=
  { c with head := { c.head with name := some n } }

/-- `src/cockpit.rs:77-79` (`set_inactivity_limit`). -/
def setInactivityLimit (c : Cockpit σ L) (d : Nat) : Cockpit σ L :=
  { c with head := { c.head with activity := { c.head.activity with maxInactivity := some d } } }

/-- `src/cockpit.rs:86-88` (`set_show_activity_state`). -/
def setShowActivityState (c : Cockpit σ L) (b : Bool) : Cockpit σ L :=
  { c with head := { c.head with activity := { c.head.activity with show_ := b } } }

/-- `src/cockpit.rs:107-118` (`add_panel`). -/
def addPanel (c : Cockpit σ L) (p : Panel σ L) : Cockpit σ L :=
  match p.name with
  | some name =>
    if c.panels.any fun q => match q.name with
        | some n => n == name
        | none => false
    then c
    else { c with panels := c.panels ++ [p] }
  | none => { c with panels := c.panels ++ [p] }

/-- `src/cockpit.rs:124-127` (`remove_panel`). -/
def removePanel (c : Cockpit σ L) (name : String) : Cockpit σ L :=
  { c with panels := c.panels.filter fun p => match p.name with
      | some n => n != name
      | none => true }

/-- `src/cockpit.rs:156-161` (`add_handler`). -/
def addHandler (c : Cockpit σ L) (h : Handler σ L) : Cockpit σ L :=
  { c with handlers := c.handlers ++ [h] }

/-- `src/cockpit.rs:187-189` (`add_snapshooter`). -/
def addSnapshooter (c : Cockpit σ L) (s : Snapshooter σ L) : Cockpit σ L :=
  { c with snapshooters := c.snapshooters ++ [s] }

end Cockpit

/-- `src/cockpit.rs:290-304` (`HandlesObservations for Cockpit`). -/
def Cockpit.handle (c : Cockpit σ L) (o : Observation L) : M (Cockpit σ L × Nat) := do
  let now ← M.now
  let (handlers, n₁) ← handleHandlers o c.handlers
  let (panels, n₂) ← handlePanels o c.panels
  let head := { c.head with activity := { c.head.activity with lastActivity := now } }
  return ({ c with head, handlers, panels }, n₁ + n₂)

omit [DecidableEq L] in
/-- `src/cockpit.rs:215-263` (`put_values_into_snapshot`, `PutsSnapshot for Cockpit`). -/
def Cockpit.putSnapshot (c : Cockpit σ L) (into : Snapshot) (d : Bool) : M (Cockpit σ L × Snapshot) := do
  let level := putDefaultDescriptives c.head.descr (levelFor c.head.name into) d
  let (go, level) ← c.head.activity.putFlags level
  if go then
    let (panels, level) ← putPanels d c.panels level
    let (handlers, level) ← putHandlers d c.handlers level
    let (snapshooters, level) ← putSnapshooters d c.snapshooters level
    return ({ c with panels, handlers, snapshooters }, closeLevel c.head.name into level)
  else return (c, closeLevel c.head.name into level)

end Metrix
