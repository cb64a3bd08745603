import Verif.Model.Mount

/-! What a part of the metrics puts into a snapshot is its own: it does not depend on what is in the snapshot already. -/

namespace Metrix

/-- The names under which titles and descriptions are put. -/
def IsText (n : String) : Prop :=
  n = "_title" ∨ n = "_description" ∨ ∃ p, n = "_title_" ++ p ∨ n = "_description_" ++ p

/-- The first is the second, except that with descriptions some titles and descriptions are left out because the snapshot
had an item with that name. -/
inductive Spared (d : Bool) (into : Snapshot) : Snapshot → Snapshot → Prop
  | nil : Spared d into [] []
  | keep {a b : Snapshot} (x : String × ItemKind) : Spared d into a b → Spared d into (x :: a) (x :: b)
  | spare {a b : Snapshot} {n : String} (t : String) : d = true → IsText n → n ∈ into.map (·.1) → Spared d into a b →
      Spared d into a ((n, .text t) :: b)

/-- To put something into the snapshot `into` is to put it into an empty snapshot and to append the result, except for titles
and descriptions that are there already. Either both panic or none does, both need as many clock readings, and both leave the
same behind. -/
def PutsOwn {C : Type} (d : Bool) (put : Snapshot → M (C × Snapshot)) : Prop :=
  ∀ (into : Snapshot) (e : Env) (k : Nat),
    Option.Rel (fun r r' => r.1.1 = r'.1.1 ∧ r.2 = r'.2 ∧ ∃ own, r.1.2 = into ++ own ∧ Spared d into own r'.1.2)
      (put into e k) (put [] e k)

/-- The same, if some has been put already: if what has been put into `into` differs from what has been put into an empty
snapshot in nothing but titles and descriptions, then it does not differ in anything else afterwards. -/
def GoesOn {C : Type} (d : Bool) (put : Snapshot → M (C × Snapshot)) : Prop :=
  ∀ (into a b : Snapshot), Spared d into a b → ∀ (e : Env) (k : Nat),
    Option.Rel (fun r r' => r.1.1 = r'.1.1 ∧ r.2 = r'.2 ∧ ∃ own, r.1.2 = into ++ own ∧ Spared d into own r'.1.2)
      (put (into ++ a) e k) (put b e k)

variable {σ L : Type}

/-- User defined components put their own as well. -/
def CustomOwn (σ L : Type) [Custom σ L] : Prop :=
  ∀ (s : σ) (d : Bool), GoesOn d fun into => Custom.putSnapshot L s into d

/-- User defined processors put their own as well. -/
def CustomProcessorOwn (σ : Type) [CustomProcessor σ] : Prop :=
  ∀ (s : σ) (d : Bool), GoesOn d fun into => CustomProcessor.putSnapshot s into d

/-- Take a snapshot of each, one after the other, each time into an empty snapshot. -/
def eachAlone {C : Type} (put : C → Snapshot → M (C × Snapshot)) : List C → M (List C × List Snapshot)
  | [] => return ([], [])
  | c :: cs => do
    let (c, s) ← put c []
    let (cs, ss) ← eachAlone put cs
    return (c :: cs, s :: ss)

end Metrix
