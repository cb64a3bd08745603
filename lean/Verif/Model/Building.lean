import Verif.Model.Driver
import Verif.Model.Settings

/-!
# Building panels, cockpits, processors, mounts, polled values and drivers

As in `Verif.Model.Settings` a step of the construction is a value, and `with_` makes it. Most steps exist as
`add_x(&mut self, ..)` or `set_x(&mut self, ..)` and also as `x(self, ..) -> Self`, which calls the former.
-/

namespace Metrix
variable {σ L : Type}

/-- `src/instruments/panel.rs:221-237`, `src/cockpit.rs:59-73`, `src/driver.rs:56-69`: `set_name`, `set_title`,
`set_description` of something whose name is optional. -/
def TextSetting.applyOptional (t : TextSetting) (name : Option String) (d : Descr) : Option String × Descr :=
  match t with
  | .name s => (some s, d)
  | .title s => (name, { d with title := some s })
  | .description s => (name, { d with description := some s })

/-- What can be set of the activity tracking. -/
inductive ActivitySetting
  | inactivityLimit (d : Nat)
  | showActivityState (b : Bool)

/-- What can be done with a panel. -/
inductive PanelStep (σ L : Type)
  | text (t : TextSetting)
  | activity (s : ActivitySetting)
  | counter (a : InstrumentAdapter L Counter)
  | gauge (a : GaugeAdapter L)
  | meter (a : InstrumentAdapter L Meter)
  | histogram (a : InstrumentAdapter L Histogram)
  | instrument (i : Instrument σ)
  | panel (p : Panel σ L)
  | handler (h : Handler σ L)
  | snapshooter (s : Snapshooter σ L)

/-- `src/instruments/panel.rs:124-274`; names, limits and flags are set by `setName`, `setInactivityLimit` and
`setShowActivityState` of `Verif.Model.Tree`. -/
def Panel.with_ (p : Panel σ L) : PanelStep σ L → Panel σ L
  | .text (.name s) => p.setName s
  | .text t => match p with
    | .mk h ps hs ss => .mk { h with name := (t.applyOptional h.name h.descr).1, descr := (t.applyOptional h.name h.descr).2 } ps hs ss
  | .activity (.inactivityLimit d) => p.setInactivityLimit d
  | .activity (.showActivityState b) => p.setShowActivityState b
  | .counter a => p.addCounter a
  | .gauge a => p.addGauge a
  | .meter a => p.addMeter a
  | .histogram a => p.addHistogram a
  | .instrument i => p.addInstrument i
  | .panel q => p.addPanel q
  | .handler x => p.addHandler x
  | .snapshooter s => p.addSnapshooter s

/-- What can be done with a cockpit. -/
inductive CockpitStep (σ L : Type)
  | text (t : TextSetting)
  | activity (s : ActivitySetting)
  | panel (p : Panel σ L)
  | removePanel (name : String)
  | handler (h : Handler σ L)
  | snapshooter (s : Snapshooter σ L)

/-- `src/cockpit.rs:59-198`. -/
def Cockpit.with_ (c : Cockpit σ L) : CockpitStep σ L → Cockpit σ L
  | .text (.name s) => c.setName s
  | .text t => { c with head := { c.head with
      name := (t.applyOptional c.head.name c.head.descr).1, descr := (t.applyOptional c.head.name c.head.descr).2 } }
  | .activity (.inactivityLimit d) => c.setInactivityLimit d
  | .activity (.showActivityState b) => c.setShowActivityState b
  | .panel p => c.addPanel p
  | .removePanel n => c.removePanel n
  | .handler h => c.addHandler h
  | .snapshooter s => c.addSnapshooter s

/-- What can be done with a processor. (There is no way to set its title and description.) -/
inductive ProcessorStep (σ L : Type)
  | name (s : String)
  | activity (s : ActivitySetting)
  | cockpit (c : Cockpit σ L)
  | handler (h : Handler σ L)
  | snapshooter (s : Snapshooter σ L)

/-- `src/processor.rs:311-456`. -/
def ProcessorState.with_ (p : ProcessorState σ L) : ProcessorStep σ L → ProcessorState σ L
  | .name s => p.setName s
  | .activity (.inactivityLimit d) => p.setInactivityLimit d
  | .activity (.showActivityState b) => p.setShowActivityState b
  | .cockpit c => p.addCockpit c
  | .handler h => p.addHandler h
  | .snapshooter s => p.addSnapshooter s

/-- What can be done with a mount. (There is no way to set its title and description.) -/
inductive MountStep (σ L : Type)
  | name (s : String)
  | inactivityLimit (d : Nat)
  | processor (n : Node σ L)
  | snapshooter (s : Snapshooter σ L)

/-- `src/processor.rs:644-670, 714-722`. -/
def Node.with_ (n : Node σ L) : MountStep σ L → Node σ L
  | .name s => match n with
    | .mount h ns ss => .mount { h with name := some s } ns ss
    | n => n
  | .inactivityLimit d => match n with
    | .mount h ns ss => .mount { h with maxInactivity := some d } ns ss
    | n => n
  | .processor x => Node.addProcessor x n
  | .snapshooter s => Node.addSnapshooter s n

/-- `src/instruments/polled.rs:15-23` (`PollingInstrument`). -/
structure PollingInstrument (σ L : Type) where
  name : String
  descr : Descr := {}
  poll : Snapshooter σ L
  createGroupWithName : Bool := false

/-- `src/instruments/polled.rs:29-37` (`new_with_defaults`). -/
def PollingInstrument.newWithDefaults (name : String) (poll : Snapshooter σ L) : PollingInstrument σ L := { name, poll }

/-- As `Box<dyn PutsSnapshot>`. -/
def PollingInstrument.toSnapshooter (p : PollingInstrument σ L) : Snapshooter σ L :=
  .polling p.name p.descr p.createGroupWithName p.poll

/-- What can be set of a polling instrument. -/
inductive PollingSetting
  | text (t : TextSetting)
  | createGroupWithName (b : Bool)

/-- `src/instruments/polled.rs:48-77`. -/
def PollingInstrument.with_ (p : PollingInstrument σ L) : PollingSetting → PollingInstrument σ L
  | .text t => { p with name := (t.apply p.name p.descr).1, descr := (t.apply p.name p.descr).2 }
  | .createGroupWithName b => { p with createGroupWithName := b }

/-- `src/instruments/polled.rs:111-116` (`ConstantValue`). -/
structure ConstantValue where
  name : String
  descr : Descr := {}
  value : ItemKind

/-- `src/instruments/polled.rs:119-126` (`new`). -/
def ConstantValue.new (name : String) (value : ItemKind) : ConstantValue := { name, value }

/-- As `Box<dyn PutsSnapshot>`. -/
def ConstantValue.toSnapshooter (c : ConstantValue) : Snapshooter σ L := .constant c.name c.descr c.value

/-- `src/instruments/polled.rs:132-153`. -/
def ConstantValue.with_ (c : ConstantValue) (t : TextSetting) : ConstantValue :=
  { c with name := (t.apply c.name c.descr).1, descr := (t.apply c.name c.descr).2 }

/-- `src/driver.rs:24-46` (`DriverBuilder`), with its `Default` (90-100). -/
structure DriverBuilder where
  name : Option String := none
  descr : Descr := {}
  strategy : Strategy := .default
  withDriverMetrics : Bool := true

/-- `src/driver.rs:49-53` (`new`). -/
def DriverBuilder.new (name : String) : DriverBuilder :=
  let me : DriverBuilder := {}
  { me with name := some name }

/-- What can be set of a driver before it is built. -/
inductive DriverSetting
  | text (t : TextSetting)
  | processingStrategy (s : Strategy)
  | driverMetrics (b : Bool)

/-- `src/driver.rs:55-78`. -/
def DriverBuilder.with_ (b : DriverBuilder) : DriverSetting → DriverBuilder
  | .text t => { b with name := (t.applyOptional b.name b.descr).1, descr := (t.applyOptional b.name b.descr).2 }
  | .processingStrategy s => { b with strategy := s }
  | .driverMetrics m => { b with withDriverMetrics := m }

/-- `src/driver.rs:80-88` (`build`): the loop on the new thread begins with this state (see `LoopState.new`). -/
def DriverBuilder.build (b : DriverBuilder) : M (LoopState σ L) :=
  LoopState.new b.name b.descr b.strategy b.withDriverMetrics

end Metrix
