import Verif.Model.Prelude

/-! # Builds with and without checks for overflow -/

namespace Metrix

/-- The same surroundings for a build without checks for overflow. -/
def Env.unchecked (e : Env) : Env := { e with profile := .release }

end Metrix
