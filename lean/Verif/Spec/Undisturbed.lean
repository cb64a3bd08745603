import Verif.Spec.Safe

/-!
# Operations at given moments

To compare two runs, the same operations must happen at the same times. So here an operation happens at one moment: all
readings of the clock it makes give the same time. A moment is a number `m`, its time is `e.clock m`.
-/

namespace Metrix

/-- The environment at a moment: the clock stands still. -/
def Env.at (e : Env) (m : Nat) : Env :=
  { e with clock := fun _ => e.clock m, histStats := fun _ => e.histStats m }

/-- `Timed e c log c'`: the operations of `log` were made on `c` at the given moments, with the given results, oldest
first. Then it was `c'`. -/
inductive Timed {C A : Type} [Component C A] (e : Env) : C → List (Nat × Op A × Out) → C → Prop
  | nil (c : C) : Timed e c [] c
  | cons {c c₁ c' : C} {m k : Nat} {op : Op A} {out : Out} {log : List (Nat × Op A × Out)} :
      step c op (e.at m) 0 = some ((c₁, out), k) → Timed e c₁ log c' → Timed e c ((m, op, out) :: log) c'

/-- `fewer` is `log` without some of its snapshots. -/
inductive WithoutSnapshots {A : Type} : List (Nat × Op A × Out) → List (Nat × Op A × Out) → Prop
  | nil : WithoutSnapshots [] []
  | keep {fewer log : List (Nat × Op A × Out)} (x : Nat × Op A × Out) :
      WithoutSnapshots fewer log → WithoutSnapshots (x :: fewer) (x :: log)
  | leaveOut {fewer log : List (Nat × Op A × Out)} (m : Nat) (into : Snapshot) (descriptive : Bool) (out : Out) :
      WithoutSnapshots fewer log → WithoutSnapshots fewer ((m, .snapshot into descriptive, out) :: log)

/-- The moments come one after the other. -/
def InOrder {A : Type} (log : List (Nat × Op A × Out)) : Prop := (log.map (·.1)).Pairwise (· ≤ ·)

/-- Rings of buckets point to one of their buckets. -/
def RingsOk {σ : Type} (is : List (Instrument σ)) : Prop :=
  ∀ g r, .gauge g ∈ is → g.tracking = some r → r.currentIdx < r.buckets.length

/-- What user defined components do depends only on their state and the moment, and a snapshot does not change their
state. -/
structure CustomStill (σ L : Type) [Custom σ L] : Prop where
  update : ∀ (e : Env) (m : Nat) (s : σ) u k k',
    (Custom.update L s u (e.at m) k).map (·.1) = (Custom.update L s u (e.at m) k').map (·.1)
  handle : ∀ (e : Env) (m : Nat) (s : σ) (o : Observation L) k k',
    (Custom.handle s o (e.at m) k).map (·.1) = (Custom.handle s o (e.at m) k').map (·.1)
  putSnapshot : ∀ (e : Env) (m : Nat) (s : σ) into d k k',
    (Custom.putSnapshot L s into d (e.at m) k).map (·.1) = (Custom.putSnapshot L s into d (e.at m) k').map (·.1)
  unchanged : ∀ (e : Env) (m : Nat) (s : σ) into d k r,
    Custom.putSnapshot L s into d (e.at m) k = some r → r.1.1 = s

/-- An instrument behind a `Box<dyn Instrument>`, on its own. -/
structure BoxedInstrument (σ L : Type) where
  instrument : Instrument σ

instance {σ L : Type} [Custom σ L] : Component (BoxedInstrument σ L) Update where
  take i u := do
    let (i, n) ← i.instrument.update L u
    return (⟨i⟩, n)
  putSnapshot i s d := do
    let (i, s) ← i.instrument.putSnapshot L s d
    return (⟨i⟩, s)

end Metrix
