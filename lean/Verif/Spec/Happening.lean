import Verif.Spec.UndisturbedRun

/-!
# What happens to a processor, no matter by which calls

Each call happens at one moment (see `Verif.Spec.Undisturbed`). A processor that is used in this way consumes messages at certain moments,
and is configured by its owner. It is left open how the messages are divided into runs.
-/

namespace Metrix
variable {σ L : Type}

inductive Happening (σ L : Type)
  /-- The message was consumed by a run at the moment, which had this strategy. -/
  | message (moment : Nat) (strategy : Strategy) (m : Message σ L)
  /-- The owner called one of the functions that configure a processor. -/
  | set (c : Call σ L)

/-- The instruments that come in with it. -/
def Happening.instruments : Happening σ L → List (Instrument σ)
  | .message _ _ m => m.instruments
  | .set c => c.instruments

/-- The numbers in the outcomes of all runs, added. -/
structure Totals where
  processed : Nat
  dropped : Nat
  updated : Nat

def totalsOf : List (Nat × Call σ L × Reply) → Totals
  | [] => ⟨0, 0, 0⟩
  | (_, _, .outcome o) :: log =>
    let t := totalsOf log
    ⟨o.processed + t.processed, o.dropped + t.dropped, o.instrumentsUpdated + t.updated⟩
  | _ :: log => totalsOf log

/-- `Happened e p log hs p'`: the calls of `log` were made on `p` at the given moments, with the given results, oldest first. Then it was
`p'`. By these calls the happenings `hs` came about. -/
inductive Happened [DecidableEq L] [Custom σ L] (e : Env) :
    Processor σ L → List (Nat × Call σ L × Reply) → List (Happening σ L) → Processor σ L → Prop
  | nil (p : Processor σ L) : Happened e p [] [] p
  | run {p p₁ p' : Processor σ L} {m k max : Nat} {strategy : Strategy} {out : Outcome} {ms : List (Message σ L)}
      {log : List (Nat × Call σ L × Reply)} {hs : List (Happening σ L)} :
      p.process max strategy (e.at m) 0 = some ((p₁, out), k) → Took p.receiver.chan p₁.receiver.chan ms → Happened e p₁ log hs p' →
      Happened e p ((m, .process max strategy, .outcome out) :: log) (ms.map (.message m strategy) ++ hs) p'
  | snapshot {p p₁ p' : Processor σ L} {m k : Nat} {into s : Snapshot} {d : Bool} {log : List (Nat × Call σ L × Reply)}
      {hs : List (Happening σ L)} : p.putSnapshot into d (e.at m) 0 = some ((p₁, s), k) → Happened e p₁ log hs p' →
      Happened e p ((m, .snapshot into d, .snapshot s) :: log) hs p'
  | set {p p' : Processor σ L} {m : Nat} {c : Call σ L} {log : List (Nat × Call σ L × Reply)} {hs : List (Happening σ L)} :
      (∀ m x, c ≠ .process m x) → (∀ i d, c ≠ .snapshot i d) → Happened e { p with state := p.state.set c } log hs p' →
      Happened e p ((m, c, .nothing) :: log) (.set c :: hs) p'

end Metrix
