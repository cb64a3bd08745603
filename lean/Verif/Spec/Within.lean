import Verif.Spec.Happening
import Verif.Spec.Exhibits

/-!
# More is configured in one processor than in another

`small.PartOf large`: `large` is `small` with further instruments, panels, handlers, cockpits and snapshooters at any places.
-/

namespace Metrix
variable {σ L : Type}

/-- The items of the first snapshot are in the second one, in the same order and the same groups. -/
inductive Snapshot.PartOf : Snapshot → Snapshot → Prop
  | nil : PartOf [] []
  | extra {s s' : Snapshot} (x : String × ItemKind) : PartOf s s' → PartOf s (x :: s')
  | same {s s' : Snapshot} (x : String × ItemKind) : PartOf s s' → PartOf (x :: s) (x :: s')
  | group {s s' t t' : Snapshot} (n : String) : PartOf t t' → PartOf s s' → PartOf ((n, .snapshot t) :: s) ((n, .snapshot t') :: s')

/-- The second panel may have instruments where the first has none. -/
structure PanelHead.PartOf (h h' : PanelHead L) : Prop where
  labelFilter : h.labelFilter = h'.labelFilter
  name : h.name = h'.name
  descr : h.descr = h'.descr
  activity : h.activity = h'.activity
  counter : h.counter = none ∨ h.counter = h'.counter
  gauge : h.gauge = none ∨ h.gauge = h'.gauge
  meter : h.meter = none ∨ h.meter = h'.meter
  histogram : h.histogram = none ∨ h.histogram = h'.histogram

mutual
inductive Panel.PartOf : Panel σ L → Panel σ L → Prop
  | mk {h h' : PanelHead L} {ps ps' : List (Panel σ L)} {hs hs' : List (Handler σ L)} {ss ss' : List (Snapshooter σ L)} :
      h.PartOf h' → PanelsPartOf ps ps' → HandlersPartOf hs hs' → SnapshootersPartOf ss ss' →
      Panel.PartOf (.mk h ps hs ss) (.mk h' ps' hs' ss')
inductive PanelsPartOf : List (Panel σ L) → List (Panel σ L) → Prop
  | nil : PanelsPartOf [] []
  | extra {ps ps' : List (Panel σ L)} (p : Panel σ L) : PanelsPartOf ps ps' → PanelsPartOf ps (p :: ps')
  | cons {p p' : Panel σ L} {ps ps' : List (Panel σ L)} : p.PartOf p' → PanelsPartOf ps ps' → PanelsPartOf (p :: ps) (p' :: ps')
inductive Handler.PartOf : Handler σ L → Handler σ L → Prop
  | instrument (a : InstrumentAdapter L (Instrument σ)) : Handler.PartOf (.instrument a) (.instrument a)
  | gauge (a : GaugeAdapter L) : Handler.PartOf (.gauge a) (.gauge a)
  | panel {p p' : Panel σ L} : p.PartOf p' → Handler.PartOf (.panel p) (.panel p')
  | cockpit (h : CockpitHead) {ps ps' : List (Panel σ L)} {hs hs' : List (Handler σ L)} {ss ss' : List (Snapshooter σ L)} :
      PanelsPartOf ps ps' → HandlersPartOf hs hs' → SnapshootersPartOf ss ss' →
      Handler.PartOf (.cockpit h ps hs ss) (.cockpit h ps' hs' ss')
  | custom (s : σ) : Handler.PartOf (.custom s) (.custom s)
inductive HandlersPartOf : List (Handler σ L) → List (Handler σ L) → Prop
  | nil : HandlersPartOf [] []
  | extra {hs hs' : List (Handler σ L)} (h : Handler σ L) : HandlersPartOf hs hs' → HandlersPartOf hs (h :: hs')
  | cons {h h' : Handler σ L} {hs hs' : List (Handler σ L)} :
      h.PartOf h' → HandlersPartOf hs hs' → HandlersPartOf (h :: hs) (h' :: hs')
inductive Snapshooter.PartOf : Snapshooter σ L → Snapshooter σ L → Prop
  | constant (n : String) (d : Descr) (v : ItemKind) : Snapshooter.PartOf (.constant n d v) (.constant n d v)
  | polling (n : String) (d : Descr) (g : Bool) {s s' : Snapshooter σ L} :
      s.PartOf s' → Snapshooter.PartOf (.polling n d g s) (.polling n d g s')
  | instrument (i : Instrument σ) : Snapshooter.PartOf (.instrument i) (.instrument i)
  | handler {h h' : Handler σ L} : h.PartOf h' → Snapshooter.PartOf (.handler h) (.handler h')
  | custom (s : σ) : Snapshooter.PartOf (.custom s) (.custom s)
inductive SnapshootersPartOf : List (Snapshooter σ L) → List (Snapshooter σ L) → Prop
  | nil : SnapshootersPartOf [] []
  | extra {ss ss' : List (Snapshooter σ L)} (s : Snapshooter σ L) : SnapshootersPartOf ss ss' → SnapshootersPartOf ss (s :: ss')
  | cons {s s' : Snapshooter σ L} {ss ss' : List (Snapshooter σ L)} :
      s.PartOf s' → SnapshootersPartOf ss ss' → SnapshootersPartOf (s :: ss) (s' :: ss')
end

/-- The predicate `used` tells which names are used for cockpits and panels in messages. Among the further panels of a cockpit are none with
such names, except where a panel of the same name is in the smaller cockpit, too. -/
structure Cockpit.PartOf (used : String → Prop) (c c' : Cockpit σ L) : Prop where
  head : c.head = c'.head
  panels : PanelsPartOf c.panels c'.panels
  handlers : HandlersPartOf c.handlers c'.handlers
  snapshooters : SnapshootersPartOf c.snapshooters c'.snapshooters
  names : ∀ n, used n → ((∃ p ∈ c.panels, p.name = some n) ↔ ∃ p ∈ c'.panels, p.name = some n)

/-- None of the further cockpits has a name that is used in messages. -/
inductive CockpitsPartOf (used : String → Prop) : List (Cockpit σ L) → List (Cockpit σ L) → Prop
  | nil : CockpitsPartOf used [] []
  | extra {cs cs' : List (Cockpit σ L)} (c : Cockpit σ L) : (∀ n, c.name = some n → ¬ used n) →
      CockpitsPartOf used cs cs' → CockpitsPartOf used cs (c :: cs')
  | cons {c c' : Cockpit σ L} {cs cs' : List (Cockpit σ L)} :
      c.PartOf used c' → CockpitsPartOf used cs cs' → CockpitsPartOf used (c :: cs) (c' :: cs')

structure ProcessorState.PartOf (used : String → Prop) (s s' : ProcessorState σ L) : Prop where
  name : s.name = s'.name
  descr : s.descr = s'.descr
  activity : s.activity = s'.activity
  cockpits : CockpitsPartOf used s.cockpits s'.cockpits
  handlers : HandlersPartOf s.handlers s'.handlers
  snapshooters : SnapshootersPartOf s.snapshooters s'.snapshooters

/-- The same message, but with more in what is to be added. -/
inductive Message.PartOf (used : String → Prop) : Message σ L → Message σ L → Prop
  | observation (o : Observation L) : Message.PartOf used (.observation o) (.observation o)
  | addCockpit {c c' : Cockpit σ L} : c.PartOf used c' → (∀ n, c.name = some n → used n) →
      Message.PartOf used (.addCockpit c) (.addCockpit c')
  | removeCockpit (n : String) : Message.PartOf used (.removeCockpit n) (.removeCockpit n)
  | addHandler {h h' : Handler σ L} : h.PartOf h' → Message.PartOf used (.addHandler h) (.addHandler h')
  | addPanelToCockpit (n : String) {p p' : Panel σ L} : used n → p.PartOf p' → (∀ m, p.name = some m → used m) →
      Message.PartOf used (.addPanelToCockpit n p) (.addPanelToCockpit n p')
  | removePanelFromCockpit (n m : String) : used n → Message.PartOf used (.removePanelFromCockpit n m) (.removePanelFromCockpit n m)

/-- The same call, but with more in what is to be added. -/
inductive Call.PartOf (used : String → Prop) : Call σ L → Call σ L → Prop
  | addCockpit {c c' : Cockpit σ L} : c.PartOf used c' → (∀ n, c.name = some n → used n) → Call.PartOf used (.addCockpit c) (.addCockpit c')
  | addHandler {h h' : Handler σ L} : h.PartOf h' → Call.PartOf used (.addHandler h) (.addHandler h')
  | addSnapshooter {x x' : Snapshooter σ L} : x.PartOf x' → Call.PartOf used (.addSnapshooter x) (.addSnapshooter x')
  | setName (n : String) : Call.PartOf used (.setName n) (.setName n)
  | setInactivityLimit (d : Nat) : Call.PartOf used (.setInactivityLimit d) (.setInactivityLimit d)
  | setShowActivityState (b : Bool) : Call.PartOf used (.setShowActivityState b) (.setShowActivityState b)

/-- A call that adds something. -/
inductive Call.Adds (used : String → Prop) : Call σ L → Prop
  | addCockpit (c : Cockpit σ L) : (∀ n, c.name = some n → ¬ used n) → Call.Adds used (.addCockpit c)
  | addHandler (h : Handler σ L) : Call.Adds used (.addHandler h)
  | addSnapshooter (x : Snapshooter σ L) : Call.Adds used (.addSnapshooter x)

/-- The same happens, but more is added. -/
inductive HappeningsPartOf (used : String → Prop) : List (Happening σ L) → List (Happening σ L) → Prop
  | nil : HappeningsPartOf used [] []
  | message {hs hs' : List (Happening σ L)} (m : Nat) (strategy : Strategy) {x x' : Message σ L} : x.PartOf used x' →
      HappeningsPartOf used hs hs' → HappeningsPartOf used (.message m strategy x :: hs) (.message m strategy x' :: hs')
  | set {hs hs' : List (Happening σ L)} {c c' : Call σ L} : c.PartOf used c' → HappeningsPartOf used hs hs' →
      HappeningsPartOf used (.set c :: hs) (.set c' :: hs')
  | extra {hs hs' : List (Happening σ L)} {c : Call σ L} : c.Adds used → HappeningsPartOf used hs hs' →
      HappeningsPartOf used hs (.set c :: hs')

/-- What a user defined type puts into a snapshot without descriptions does not depend on what is in the snapshot. -/
def CustomFrames (σ L : Type) [Custom σ L] : Prop := ∀ (s : σ) (into : Snapshot) (e : Env) (k : Nat),
  Custom.putSnapshot L s into false e k = (Custom.putSnapshot L s [] false e k).map fun r => ((r.1.1, into ++ r.1.2), r.2)

end Metrix
