import Verif.Model.Settings

/-! # The last setting of each kind -/

namespace Metrix

/-- The value of the last setting of a kind; `sel` tells what a setting of this kind sets. -/
def lastSet {S A : Type} (sel : S → Option A) (ss : List S) : Option A := (ss.filterMap sel).getLast?

/-- It, or what was there before. -/
def latest {S A : Type} (sel : S → Option A) (ss : List S) (before : A) : A := (lastSet sel ss).getD before

def TextSetting.name? : TextSetting → Option String
  | .name s => some s
  | _ => none
def TextSetting.title? : TextSetting → Option String
  | .title s => some s
  | _ => none
def TextSetting.description? : TextSetting → Option String
  | .description s => some s
  | _ => none

/-- The title and description after some settings. -/
def latestDescr (ts : List TextSetting) (before : Descr) : Descr :=
  { title := (lastSet TextSetting.title? ts).or before.title
    description := (lastSet TextSetting.description? ts).or before.description }

namespace MeterSetting
def text? : MeterSetting → Option TextSetting
  | .text t => some t
  | _ => none
def lowerCutoff? : MeterSetting → Option F64
  | .lowerCutoff q => some q
  | _ => none
def oneMinute? : MeterSetting → Option Bool
  | .oneMinute b => some b
  | _ => none
def fiveMinutes? : MeterSetting → Option Bool
  | .fiveMinutes b => some b
  | _ => none
def fifteenMinutes? : MeterSetting → Option Bool
  | .fifteenMinutes b => some b
  | _ => none
end MeterSetting

namespace ValueMeterSetting
def meter? : ValueMeterSetting → Option MeterSetting
  | .meter s => some s
  | _ => none
def unit? : ValueMeterSetting → Option TimeUnit
  | .displayTimeUnit u => some u
  | _ => none
end ValueMeterSetting

namespace HistogramSetting
def text? : HistogramSetting → Option TextSetting
  | .text t => some t
  | _ => none
def limit? : HistogramSetting → Option Nat
  | .inactivityLimit d => some d
  | _ => none
def reset? : HistogramSetting → Option Bool
  | .resetAfterInactivity b => some b
  | _ => none
def show? : HistogramSetting → Option Bool
  | .showActivityState b => some b
  | _ => none
def unit? : HistogramSetting → Option TimeUnit
  | .displayTimeUnit u => some u
  | _ => none
end HistogramSetting

namespace GaugeSetting
def text? : GaugeSetting → Option TextSetting
  | .text t => some t
  | _ => none
def value? : GaugeSetting → Option Int
  | .value v => some v
  | _ => none
def group? : GaugeSetting → Option Bool
  | .groupValues b => some b
  | _ => none
/-- The length of the tracked window. Zero is not a setting. -/
def window? : GaugeSetting → Option Nat
  | .tracking 0 => none
  | .tracking (n + 1) => some (n + 1)
  | _ => none
def unit? : GaugeSetting → Option TimeUnit
  | .displayTimeUnit u => some u
  | _ => none
end GaugeSetting

/-- The name of the inverted item, given the name of the plain one. -/
def InvertedSetting.nameFor (i : InvertedSetting) (name : String) : String :=
  match i with
  | .as a => a.adjustName name
  | .prefixed s => s ++ name
  | .postfixed s => name ++ s
  | .renamed s => s

namespace FlagSetting
def text? : FlagSetting → Option TextSetting
  | .text t => some t
  | _ => none
def state? : FlagSetting → Option Bool
  | .state b => some b
  | _ => none
def inverted? : FlagSetting → Option InvertedSetting
  | .showInverted i => some i
  | _ => none
end FlagSetting

namespace SwitchSetting
def text? : SwitchSetting → Option TextSetting
  | .text t => some t
  | _ => none
def invert? : SwitchSetting → Option Bool
  | .invert b => some b
  | _ => none
def duration? : SwitchSetting → Option Nat
  | .duration d => some d
  | _ => none
def inverted? : SwitchSetting → Option InvertedSetting
  | .showInverted i => some i
  | _ => none
end SwitchSetting

namespace DisplaySetting
def text? : DisplaySetting → Option TextSetting
  | .text t => some t
  | _ => none
def after? : DisplaySetting → Option Nat
  | .resetAfter d => some d
  | _ => none
def value? : DisplaySetting → Option ItemKind
  | .resetValue v => some v
  | _ => none
end DisplaySetting

namespace LastOccurrenceSetting
def text? : LastOccurrenceSetting → Option TextSetting
  | .text t => some t
  | _ => none
def invert? : LastOccurrenceSetting → Option Bool
  | .invert b => some b
  | _ => none
def zero? : LastOccurrenceSetting → Option Bool
  | .makeNoneZero b => some b
  | _ => none
end LastOccurrenceSetting

end Metrix
