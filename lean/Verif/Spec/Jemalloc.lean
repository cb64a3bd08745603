import Verif.Model.Jemalloc
import Verif.Spec.Schema
import Verif.Spec.Numbers

/-! # What is shown of the allocator -/

namespace Metrix

/-- The questions, in order. -/
def ctlOrder : List Ctl :=
  [.epoch, .active, .allocated, .mapped, .metadata, .resident, .retained, .narenas, .maxBackgroundThreads]

/-- The answers to some questions asked one after the other when `n` were asked before, up to the first error. -/
def answersUntilError (answer : Ctl → Nat → Option Nat) : Nat → List Ctl → List Nat
  | _, [] => []
  | n, c :: cs =>
    match answer c n with
    | none => []
    | some v => v :: answersUntilError answer (n + 1) cs

/-- What the answers amount to. The statistics are shown together or not at all, and nothing without what comes before. -/
def allocatorItems : List Nat → Snapshot
  | _ :: active :: allocated :: mapped :: metadata :: resident :: retained :: more =>
    ("stats", .snapshot [("active", .uint active), ("allocated", .uint allocated), ("mapped", .uint mapped),
      ("metadata", .uint metadata), ("resident", .uint resident), ("retained", .uint retained)]) ::
    match more with
    | [] => []
    | narenas :: more =>
      ("arenas", .snapshot [("narenas", .uint narenas)]) ::
      match more with
      | [] => []
      | threads :: _ => [("max_background_threads", .uint threads)]
  | _ => []

/-- The allocator answers with values of the types of the questions. -/
def Jemalloc.Answers (s : Jemalloc) : Prop :=
  ∀ c n v, s.answer c n = some v → if c = .narenas then IntType.u32.Holds v else IntType.usize.Holds v

/-- The schema of the items. -/
def allocatorSlots : List Slot :=
  [.maybe [.group "stats" (["active", "allocated", "mapped", "metadata", "resident", "retained"].map fun n => .value n [.uint]),
    .maybe [.group "arenas" [.value "narenas" [.uint]], .maybe [.value "max_background_threads" [.uint]]]]]

end Metrix
