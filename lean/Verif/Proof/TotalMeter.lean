import Verif.Proof.Total
import Verif.Model.Meter

/-! Meters do not panic in release builds. -/

namespace Metrix
variable {e : Env}

theorem StdMeter.ok_new : M.Ok e StdMeter.new := .envBind (.bind .now fun _ => .pure _)

theorem StdMeter.ok_tick (s : StdMeter) : M.Ok e s.tick := .envBind (.bind .now fun _ => .pure _)

theorem StdMeter.ok_mark (he : e.profile = .release) (s : StdMeter) (n : Int) : M.Ok e (s.mark n) :=
  .bind s.ok_tick fun _ => .bind (.arithI64 he _) fun _ => .pure _

theorem StdMeter.ok_mean (he : e.profile = .release) (s : StdMeter) : M.Ok e s.mean :=
  .ite (.pure _) (.envBind (.bind .now fun _ => .bind (.arithU64 he _) fun _ => .bind (.arithU64 he _) fun _ =>
    .ite (.pure _) (.pure _)))

theorem StdMeter.ok_snapshot (he : e.profile = .release) (s : StdMeter) : M.Ok e s.snapshot :=
  .envBind (.bind s.ok_tick fun s => .bind (s.ok_mean he) fun _ => .pure _)

theorem Meter.ok_new (name : String) : M.Ok e (Meter.new name) :=
  .bind .now fun _ => .bind StdMeter.ok_new fun _ => .pure _

theorem Meter.ok_tickIfDue (m : Meter) : M.Ok e m.tickIfDue :=
  .bind .now fun _ => .ite (.bind m.inner.ok_tick fun _ => .bind .now fun _ => .pure _) (.pure _)

theorem Meter.ok_putSnapshot (he : e.profile = .release) (m : Meter) (s : Snapshot) (d : Bool) :
    M.Ok e (m.putSnapshot s d) :=
  .bind (.bind m.ok_tickIfDue fun m => .bind (m.inner.ok_snapshot he) fun _ => .pure _) fun _ => .pure _

theorem Meter.ok_update (he : e.profile = .release) (m : Meter) (u : Update) : M.Ok e (m.update u) := by
  refine .bind m.ok_tickIfDue fun m => ?_
  cases u with
  | withValue v t => exact .bind (m.inner.ok_mark he 1) fun _ => .pure _
  | observation t => exact .bind (m.inner.ok_mark he 1) fun _ => .pure _
  | observations n t => exact .ite (.bind (m.inner.ok_mark he n) fun _ => .pure _) (.pure _)

end Metrix
