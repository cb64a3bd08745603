import Verif.Model.Building
import Verif.Spec.Settings
import Verif.Spec.Exhibits
import Verif.Spec.Dispatch

/-! # What the steps of a construction mean -/

namespace Metrix
variable {σ L : Type}

namespace ActivitySetting
def limit? : ActivitySetting → Option Nat
  | .inactivityLimit d => some d
  | _ => none
def show? : ActivitySetting → Option Bool
  | .showActivityState b => some b
  | _ => none
end ActivitySetting

/-- The last name that was set, or the one before, which may be none. -/
def latestName (ts : List TextSetting) (before : Option String) : Option String :=
  (lastSet TextSetting.name? ts).or before

/-- The last limit and the last flag. When something last happened is not touched. -/
def latestActivity (ss : List ActivitySetting) (before : Activity) : Activity :=
  { lastActivity := before.lastActivity
    maxInactivity := (lastSet ActivitySetting.limit? ss).or before.maxInactivity
    show_ := latest ActivitySetting.show? ss before.show_ }

/-- What a step adds to the reactions of a panel to observations. -/
def PanelStep.leaves : PanelStep σ L → List (Placed σ L)
  | .counter a => [([], .instrument (a.map .counter))]
  | .gauge a => [([], .gauge a)]
  | .meter a => [([], .instrument (a.map .meter))]
  | .histogram a => [([], .instrument (a.map .histogram))]
  | .instrument i => [([], .instrument (.new i))]
  | .panel p => p.leaves
  | .handler h => h.leaves
  | _ => []

/-- What a step adds to what a panel shows. -/
def PanelStep.exhibits : PanelStep σ L → List (Exhibit (Snapshooter σ L))
  | .counter a => [⟨[], [], .handler (.instrument (a.map .counter))⟩]
  | .gauge a => [⟨[], [], .handler (.gauge a)⟩]
  | .meter a => [⟨[], [], .handler (.instrument (a.map .meter))⟩]
  | .histogram a => [⟨[], [], .handler (.instrument (a.map .histogram))⟩]
  | .instrument i => [⟨[], [], .handler (.instrument (.new i))⟩]
  | .panel p => p.exhibits
  | .handler h => h.exhibits
  | .snapshooter s => s.exhibits
  | _ => []

/-- What a panel shows, seen from inside. -/
def Panel.contents : Panel σ L → List (Exhibit (Snapshooter σ L))
  | .mk h ps hs ss => h.exhibits ++ exhibitsOfPanels ps ++ exhibitsOfSnapshooters ss ++ exhibitsOfHandlers hs

namespace PanelStep
def text? : PanelStep σ L → Option TextSetting
  | .text t => some t
  | _ => none
def activity? : PanelStep σ L → Option ActivitySetting
  | .activity s => some s
  | _ => none
end PanelStep

/-- Something is added to a collection, or everything with a name is removed from it. -/
inductive RosterChange (X : Type)
  | add (x : X)
  | remove (name : String)

namespace RosterChange
variable {X : Type}

def added? : RosterChange X → Option X
  | .add x => some x
  | .remove _ => none

/-- Was something removed under the name? -/
def removes (n : String) (cs : List (RosterChange X)) : Bool := cs.any fun c => match c with
  | .remove m => m == n
  | .add _ => false

/-- The changes after the last removal under the name: all of them if there was none. -/
def since (n : String) : List (RosterChange X) → List (RosterChange X)
  | [] => []
  | c :: cs => if removes n (c :: cs) then since n cs else c :: cs

/-- Who has the name after the changes, if `before` had it before: those who had it before, unless it was removed, and
otherwise the first to come afterwards. -/
def holders (name : X → Option String) (n : String) (before : List X) (cs : List (RosterChange X)) : List X :=
  match if removes n cs then [] else before with
  | [] => ((since n cs).filterMap added?).filter (name · == some n) |>.take 1
  | x :: xs => x :: xs
end RosterChange

namespace CockpitStep
def text? : CockpitStep σ L → Option TextSetting
  | .text t => some t
  | _ => none
def activity? : CockpitStep σ L → Option ActivitySetting
  | .activity s => some s
  | _ => none
def panels? : CockpitStep σ L → Option (RosterChange (Panel σ L))
  | .panel p => some (.add p)
  | .removePanel n => some (.remove n)
  | _ => none
def handler? : CockpitStep σ L → Option (Handler σ L)
  | .handler h => some h
  | _ => none
def snapshooter? : CockpitStep σ L → Option (Snapshooter σ L)
  | .snapshooter s => some s
  | _ => none
end CockpitStep

namespace ProcessorStep
def name? : ProcessorStep σ L → Option String
  | .name s => some s
  | _ => none
def activity? : ProcessorStep σ L → Option ActivitySetting
  | .activity s => some s
  | _ => none
def cockpits? : ProcessorStep σ L → Option (RosterChange (Cockpit σ L))
  | .cockpit c => some (.add c)
  | _ => none
def handler? : ProcessorStep σ L → Option (Handler σ L)
  | .handler h => some h
  | _ => none
def snapshooter? : ProcessorStep σ L → Option (Snapshooter σ L)
  | .snapshooter s => some s
  | _ => none
end ProcessorStep

namespace MountStep
def name? : MountStep σ L → Option String
  | .name s => some s
  | _ => none
def limit? : MountStep σ L → Option Nat
  | .inactivityLimit d => some d
  | _ => none
def processor? : MountStep σ L → Option (Node σ L)
  | .processor n => some n
  | _ => none
def snapshooter? : MountStep σ L → Option (Snapshooter σ L)
  | .snapshooter s => some s
  | _ => none
end MountStep

namespace PollingSetting
def text? : PollingSetting → Option TextSetting
  | .text t => some t
  | _ => none
def group? : PollingSetting → Option Bool
  | .createGroupWithName b => some b
  | _ => none
end PollingSetting

namespace DriverSetting
def text? : DriverSetting → Option TextSetting
  | .text t => some t
  | _ => none
def strategy? : DriverSetting → Option Strategy
  | .processingStrategy s => some s
  | _ => none
def metrics? : DriverSetting → Option Bool
  | .driverMetrics b => some b
  | _ => none
end DriverSetting

end Metrix
