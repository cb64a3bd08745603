import Verif.Model.Observation

/-! # What an observation says -/

namespace Metrix

/-- When it was made. -/
def Observation.madeAt {L : Type} : Observation L → Int
  | .observed _ _ t | .observedOne _ t | .observedOneValue _ _ t => t

/-- What instruments are told of it: everything but the label. -/
def Observation.content {L : Type} : Observation L → Update
  | .observed _ n t => .observations n t
  | .observedOne _ t => .observation t
  | .observedOneValue _ v t => .withValue v t

theorem Observation.timestamp_eq {L : Type} (o : Observation L) : o.timestamp = o.madeAt := by cases o <;> rfl

theorem Observation.toUpdate_eq {L : Type} (o : Observation L) : o.toUpdate = o.content := by cases o <;> rfl

theorem Observation.toUpdate_eq' {L : Type} : (Observation.toUpdate : Observation L → Update) = Observation.content :=
  funext Observation.toUpdate_eq

end Metrix
