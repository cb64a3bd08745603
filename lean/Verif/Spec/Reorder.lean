import Verif.Spec.Within
import Verif.Model.Building

/-!
# The same parts in another order

`p.Reordered q`: `q` has the same parts as `p`, but the panels, handlers, snapshooters and cockpits may be in another order, at any depth.
A panel keeps the first counter, gauge, meter and histogram that is added to it apart from the others; which one that is may differ.
A panel or cockpit that only groups its parts (it has no name and no limit, and lets in whatever reaches it) need not be there: its parts
may also be where it is.
-/

namespace Metrix
variable {σ L : Type}

/-- The same items in another order, also in the groups. -/
inductive Snapshot.Reordered : Snapshot → Snapshot → Prop
  | nil : Reordered [] []
  | same {s s' : Snapshot} (x : String × ItemKind) : Reordered s s' → Reordered (x :: s) (x :: s')
  | group {s s' t t' : Snapshot} (n : String) : Reordered t t' → Reordered s s' → Reordered ((n, .snapshot t) :: s) ((n, .snapshot t') :: s')
  | swap {s : Snapshot} (x y : String × ItemKind) : Reordered (x :: y :: s) (y :: x :: s)
  | trans {s t u : Snapshot} : Reordered s t → Reordered t u → Reordered s u

mutual
/-- All values with the names that lead to them, for an item that is reached by the names `path`. -/
def ItemKind.values (path : List String) : ItemKind → List (List String × ItemKind)
  | .snapshot s => Snapshot.values path s
  | .text v => [(path, .text v)]
  | .boolean v => [(path, .boolean v)]
  | .float v => [(path, .float v)]
  | .uint v => [(path, .uint v)]
  | .int v => [(path, .int v)]
/-- All values in a snapshot and its groups with the names that lead to them. -/
def Snapshot.values (path : List String) : List (String × ItemKind) → List (List String × ItemKind)
  | [] => []
  | (n, v) :: s => v.values (path ++ [n]) ++ Snapshot.values path s
end

/-- The first panel keeps an instrument in the place for the first counter, gauge, meter or histogram. In the second this place is free
and the instrument is one of the handlers. -/
inductive PanelHead.Gives : PanelHead L → Handler σ L → PanelHead L → Prop
  | counter (h : PanelHead L) (a : InstrumentAdapter L Counter) :
      Gives { h with counter := some a } (.instrument (a.map .counter)) { h with counter := none }
  | gauge (h : PanelHead L) (a : GaugeAdapter L) : Gives { h with gauge := some a } (.gauge a) { h with gauge := none }
  | meter (h : PanelHead L) (a : InstrumentAdapter L Meter) :
      Gives { h with meter := some a } (.instrument (a.map .meter)) { h with meter := none }
  | histogram (h : PanelHead L) (a : InstrumentAdapter L Histogram) :
      Gives { h with histogram := some a } (.instrument (a.map .histogram)) { h with histogram := none }

/-- The panel only groups what was added to it: it has no name and no limit for inactivity, and no instruments of its own. -/
structure PanelHead.Plain (h : PanelHead L) : Prop where
  name : h.name = none
  limit : h.activity.maxInactivity = none
  counter : h.counter = none
  gauge : h.gauge = none
  meter : h.meter = none
  histogram : h.histogram = none

/-- The cockpit only groups what was added to it. -/
structure CockpitHead.Plain (h : CockpitHead) : Prop where
  name : h.name = none
  limit : h.activity.maxInactivity = none

mutual
inductive Panel.Reordered : Panel σ L → Panel σ L → Prop
  | mk (h : PanelHead L) {ps ps' : List (Panel σ L)} {hs hs' : List (Handler σ L)} {ss ss' : List (Snapshooter σ L)} :
      PanelsReordered ps ps' → HandlersReordered hs hs' → SnapshootersReordered ss ss' →
      Panel.Reordered (.mk h ps hs ss) (.mk h ps' hs' ss')
  | place {h h' : PanelHead L} {x : Handler σ L} {ps ps' : List (Panel σ L)} {hs hs' : List (Handler σ L)} {ss ss' : List (Snapshooter σ L)} :
      h.Gives x h' → PanelsReordered ps ps' → HandlersReordered hs hs' → SnapshootersReordered ss ss' →
      Panel.Reordered (.mk h ps hs ss) (.mk h' ps' (x :: hs') ss')
  /-- A panel may be one of the panels or one of the handlers. -/
  | handler (h : PanelHead L) {p p' : Panel σ L} {ps ps' : List (Panel σ L)} {hs hs' : List (Handler σ L)} {ss ss' : List (Snapshooter σ L)} :
      p.Reordered p' → PanelsReordered ps ps' → HandlersReordered hs hs' → SnapshootersReordered ss ss' →
      Panel.Reordered (.mk h (ps ++ [p]) hs ss) (.mk h ps' (.panel p' :: hs') ss')
  /-- The parts of a panel that only groups them may be in the panel around it. -/
  | ungroup {h g : PanelHead L} {ps ps' : List (Panel σ L)} {ks ks' hs hs' : List (Handler σ L)} {ss ss' ts ts' : List (Snapshooter σ L)} :
      g.Plain → g.labelFilter = h.labelFilter ∨ g.labelFilter = .acceptAll → PanelsReordered ps ps' → HandlersReordered ks ks' →
      HandlersReordered hs hs' → SnapshootersReordered ss ss' → SnapshootersReordered ts ts' →
      Panel.Reordered (.mk h ps (.panel (.mk g [] ks ts) :: hs) ss) (.mk h ps' (ks' ++ hs') (ss' ++ ts'))
  | symm {p q : Panel σ L} : p.Reordered q → Panel.Reordered q p
  | trans {p q r : Panel σ L} : p.Reordered q → q.Reordered r → Panel.Reordered p r
inductive PanelsReordered : List (Panel σ L) → List (Panel σ L) → Prop
  | nil : PanelsReordered [] []
  | cons {p p' : Panel σ L} {ps ps' : List (Panel σ L)} : p.Reordered p' → PanelsReordered ps ps' → PanelsReordered (p :: ps) (p' :: ps')
  | swap {p p' q q' : Panel σ L} {ps ps' : List (Panel σ L)} : p.Reordered p' → q.Reordered q' → PanelsReordered ps ps' →
      PanelsReordered (p :: q :: ps) (q' :: p' :: ps')
  | trans {ps qs rs : List (Panel σ L)} : PanelsReordered ps qs → PanelsReordered qs rs → PanelsReordered ps rs
inductive Handler.Reordered : Handler σ L → Handler σ L → Prop
  | instrument (a : InstrumentAdapter L (Instrument σ)) : Handler.Reordered (.instrument a) (.instrument a)
  | gauge (a : GaugeAdapter L) : Handler.Reordered (.gauge a) (.gauge a)
  | panel {p p' : Panel σ L} : p.Reordered p' → Handler.Reordered (.panel p) (.panel p')
  | cockpit (h : CockpitHead) {ps ps' : List (Panel σ L)} {hs hs' : List (Handler σ L)} {ss ss' : List (Snapshooter σ L)} :
      PanelsReordered ps ps' → HandlersReordered hs hs' → SnapshootersReordered ss ss' →
      Handler.Reordered (.cockpit h ps hs ss) (.cockpit h ps' hs' ss')
  | custom (s : σ) : Handler.Reordered (.custom s) (.custom s)
inductive HandlersReordered : List (Handler σ L) → List (Handler σ L) → Prop
  | nil : HandlersReordered [] []
  | cons {p p' : Handler σ L} {ps ps' : List (Handler σ L)} : p.Reordered p' → HandlersReordered ps ps' →
      HandlersReordered (p :: ps) (p' :: ps')
  | swap {p p' q q' : Handler σ L} {ps ps' : List (Handler σ L)} : p.Reordered p' → q.Reordered q' → HandlersReordered ps ps' →
      HandlersReordered (p :: q :: ps) (q' :: p' :: ps')
  /-- The handlers in a panel that only groups them may be where the panel is. -/
  | panel {g : PanelHead L} {ks ks' hs hs' : List (Handler σ L)} : g.Plain → g.labelFilter = .acceptAll → HandlersReordered ks ks' →
      HandlersReordered hs hs' → HandlersReordered (.panel (.mk g [] ks []) :: hs) (ks' ++ hs')
  /-- The panels and handlers in a cockpit that only groups them may be where the cockpit is. -/
  | cockpit {g : CockpitHead} {qs qs' : List (Panel σ L)} {ks ks' hs hs' : List (Handler σ L)} : g.Plain → PanelsReordered qs qs' →
      HandlersReordered ks ks' → HandlersReordered hs hs' →
      HandlersReordered (.cockpit g qs ks [] :: hs) (ks' ++ (qs'.map .panel ++ hs'))
  | symm {ps qs : List (Handler σ L)} : HandlersReordered ps qs → HandlersReordered qs ps
  | trans {ps qs rs : List (Handler σ L)} : HandlersReordered ps qs → HandlersReordered qs rs → HandlersReordered ps rs
inductive Snapshooter.Reordered : Snapshooter σ L → Snapshooter σ L → Prop
  | constant (n : String) (d : Descr) (v : ItemKind) : Snapshooter.Reordered (.constant n d v) (.constant n d v)
  | polling (n : String) (d : Descr) (g : Bool) {s s' : Snapshooter σ L} :
      s.Reordered s' → Snapshooter.Reordered (.polling n d g s) (.polling n d g s')
  | instrument (i : Instrument σ) : Snapshooter.Reordered (.instrument i) (.instrument i)
  | handler {h h' : Handler σ L} : h.Reordered h' → Snapshooter.Reordered (.handler h) (.handler h')
  | custom (s : σ) : Snapshooter.Reordered (.custom s) (.custom s)
inductive SnapshootersReordered : List (Snapshooter σ L) → List (Snapshooter σ L) → Prop
  | nil : SnapshootersReordered [] []
  | cons {p p' : Snapshooter σ L} {ps ps' : List (Snapshooter σ L)} : p.Reordered p' → SnapshootersReordered ps ps' →
      SnapshootersReordered (p :: ps) (p' :: ps')
  | swap {p p' q q' : Snapshooter σ L} {ps ps' : List (Snapshooter σ L)} : p.Reordered p' → q.Reordered q' →
      SnapshootersReordered ps ps' → SnapshootersReordered (p :: q :: ps) (q' :: p' :: ps')
  | trans {ps qs rs : List (Snapshooter σ L)} : SnapshootersReordered ps qs → SnapshootersReordered qs rs → SnapshootersReordered ps rs
end

/-- Not both have the same name. -/
def Apart (n n' : Option String) : Prop := ∀ m, n = some m → n' ≠ some m

structure Cockpit.Reordered (c c' : Cockpit σ L) : Prop where
  head : c.head = c'.head
  panels : PanelsReordered c.panels c'.panels
  handlers : HandlersReordered c.handlers c'.handlers
  snapshooters : SnapshootersReordered c.snapshooters c'.snapshooters

/-- Cockpits with the same name remain in their order, since messages find the first of them. (A processor never has two such cockpits.) -/
inductive CockpitsReordered : List (Cockpit σ L) → List (Cockpit σ L) → Prop
  | nil : CockpitsReordered [] []
  | cons {c c' : Cockpit σ L} {cs cs' : List (Cockpit σ L)} : c.Reordered c' → CockpitsReordered cs cs' →
      CockpitsReordered (c :: cs) (c' :: cs')
  | swap {c c' d d' : Cockpit σ L} {cs cs' : List (Cockpit σ L)} : Apart c.name d.name → c.Reordered c' → d.Reordered d' →
      CockpitsReordered cs cs' → CockpitsReordered (c :: d :: cs) (d' :: c' :: cs')
  | trans {cs ds es : List (Cockpit σ L)} : CockpitsReordered cs ds → CockpitsReordered ds es → CockpitsReordered cs es

structure ProcessorState.Reordered (s s' : ProcessorState σ L) : Prop where
  name : s.name = s'.name
  descr : s.descr = s'.descr
  activity : s.activity = s'.activity
  cockpits : CockpitsReordered s.cockpits s'.cockpits
  handlers : HandlersReordered s.handlers s'.handlers
  snapshooters : SnapshootersReordered s.snapshooters s'.snapshooters

/-- What can be added to panels and cockpits. -/
inductive Piece (σ L : Type)
  | panel (p : Panel σ L)
  | handler (h : Handler σ L)
  | snapshooter (x : Snapshooter σ L)

/-- It adds something to a panel: all but the calls that set texts, limits and flags. -/
def PanelStep.Adds : PanelStep σ L → Prop
  | .text _ | .activity _ => False
  | _ => True

/-- What a call adds to a panel, as something that can be added with `add_handler` to panels, cockpits and processors. -/
def PanelStep.asHandler : PanelStep σ L → Option (Handler σ L)
  | .counter a => some (.instrument (a.map .counter))
  | .gauge a => some (.gauge a)
  | .meter a => some (.instrument (a.map .meter))
  | .histogram a => some (.instrument (a.map .histogram))
  | .instrument i => some (.instrument (.new i))
  | .panel p => some (.panel p)
  | .handler h => some h
  | .text _ | .activity _ | .snapshooter _ => none

/-- The calls `add_panel`, `add_handler` and `add_snapshooter` of a panel. -/
def Panel.add (p : Panel σ L) : Piece σ L → Panel σ L
  | .panel x => p.addPanel x
  | .handler x => p.addHandler x
  | .snapshooter x => p.addSnapshooter x

/-- The calls `add_panel`, `add_handler` and `add_snapshooter` of a cockpit. -/
def Cockpit.add (c : Cockpit σ L) : Piece σ L → Cockpit σ L
  | .panel x => c.addPanel x
  | .handler x => c.addHandler x
  | .snapshooter x => c.addSnapshooter x

/-- Not both are panels of the same name. -/
def Piece.Apart : Piece σ L → Piece σ L → Prop
  | .panel p, .panel q => Metrix.Apart p.name q.name
  | _, _ => True

/-- Messages that bring the same parts, which may be reordered inside. -/
inductive Message.Reordered : Message σ L → Message σ L → Prop
  | observation (o : Observation L) : Message.Reordered (.observation o) (.observation o)
  | addCockpit {c c' : Cockpit σ L} : c.Reordered c' → Message.Reordered (.addCockpit c) (.addCockpit c')
  | removeCockpit (n : String) : Message.Reordered (.removeCockpit n) (.removeCockpit n)
  | addHandler {h h' : Handler σ L} : h.Reordered h' → Message.Reordered (.addHandler h) (.addHandler h')
  | addPanelToCockpit (n : String) {p p' : Panel σ L} : p.Reordered p' →
      Message.Reordered (.addPanelToCockpit n p) (.addPanelToCockpit n p')
  | removePanelFromCockpit (n m : String) : Message.Reordered (.removePanelFromCockpit n m) (.removePanelFromCockpit n m)

inductive Call.Reordered : Call σ L → Call σ L → Prop
  | addCockpit {c c' : Cockpit σ L} : c.Reordered c' → Call.Reordered (.addCockpit c) (.addCockpit c')
  | addHandler {h h' : Handler σ L} : h.Reordered h' → Call.Reordered (.addHandler h) (.addHandler h')
  | addSnapshooter {x x' : Snapshooter σ L} : x.Reordered x' → Call.Reordered (.addSnapshooter x) (.addSnapshooter x')
  | setName (n : String) : Call.Reordered (.setName n) (.setName n)
  | setInactivityLimit (d : Nat) : Call.Reordered (.setInactivityLimit d) (.setInactivityLimit d)
  | setShowActivityState (b : Bool) : Call.Reordered (.setShowActivityState b) (.setShowActivityState b)

/-- Two messages that add parts which do not compete for a name. -/
inductive Message.Swaps : Message σ L → Message σ L → Prop
  | handlers (h h' : Handler σ L) : Swaps (.addHandler h) (.addHandler h')
  | cockpits {c c' : Cockpit σ L} : Apart c.name c'.name → Swaps (.addCockpit c) (.addCockpit c')
  | panels {n n' : String} {p p' : Panel σ L} : n ≠ n' ∨ Apart p.name p'.name → Swaps (.addPanelToCockpit n p) (.addPanelToCockpit n' p')
  | handlerCockpit (h : Handler σ L) (c : Cockpit σ L) : Swaps (.addHandler h) (.addCockpit c)
  | handlerPanel (h : Handler σ L) (n : String) (p : Panel σ L) : Swaps (.addHandler h) (.addPanelToCockpit n p)
  | cockpitPanel {c : Cockpit σ L} {n : String} (p : Panel σ L) : c.name ≠ some n → Swaps (.addCockpit c) (.addPanelToCockpit n p)

/-- The same for calls. -/
inductive Call.Swaps : Call σ L → Call σ L → Prop
  | handlers (h h' : Handler σ L) : Swaps (.addHandler h) (.addHandler h')
  | cockpits {c c' : Cockpit σ L} : Apart c.name c'.name → Swaps (.addCockpit c) (.addCockpit c')
  | snapshooters (x x' : Snapshooter σ L) : Swaps (.addSnapshooter x) (.addSnapshooter x')
  | handlerCockpit (h : Handler σ L) (c : Cockpit σ L) : Swaps (.addHandler h) (.addCockpit c)
  | handlerSnapshooter (h : Handler σ L) (x : Snapshooter σ L) : Swaps (.addHandler h) (.addSnapshooter x)
  | snapshooterCockpit (x : Snapshooter σ L) (c : Cockpit σ L) : Swaps (.addSnapshooter x) (.addCockpit c)

/-- The same parts are added, but those that are added one after the other may be added in another order. All else happens in the same
order. -/
inductive HappeningsReordered : List (Happening σ L) → List (Happening σ L) → Prop
  | nil : HappeningsReordered [] []
  | message {hs hs' : List (Happening σ L)} (m : Nat) (strategy : Strategy) {x x' : Message σ L} : x.Reordered x' →
      HappeningsReordered hs hs' → HappeningsReordered (.message m strategy x :: hs) (.message m strategy x' :: hs')
  | set {hs hs' : List (Happening σ L)} {c c' : Call σ L} : c.Reordered c' → HappeningsReordered hs hs' →
      HappeningsReordered (.set c :: hs) (.set c' :: hs')
  | swapMessages {hs : List (Happening σ L)} (m : Nat) (strategy : Strategy) {x y : Message σ L} : x.Swaps y ∨ y.Swaps x →
      HappeningsReordered (.message m strategy x :: .message m strategy y :: hs) (.message m strategy y :: .message m strategy x :: hs)
  | swapCalls {hs : List (Happening σ L)} {c d : Call σ L} : c.Swaps d ∨ d.Swaps c →
      HappeningsReordered (.set c :: .set d :: hs) (.set d :: .set c :: hs)
  | trans {hs hs' hs'' : List (Happening σ L)} : HappeningsReordered hs hs' → HappeningsReordered hs' hs'' →
      HappeningsReordered hs hs''

end Metrix
