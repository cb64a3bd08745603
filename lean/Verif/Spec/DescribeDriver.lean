import Verif.Spec.Describe
import Verif.Model.Driver

/-! # A driver without titles and descriptions -/

namespace Metrix
variable {σ L : Type}

/-- The metrics of a driver about itself without titles and descriptions. -/
def DriverInstruments.undescribed (i : DriverInstruments) : DriverInstruments where
  collectionsPerSecond := { i.collectionsPerSecond with descr := {} }
  collectionTimes := { i.collectionTimes with descr := {} }
  processedPerSecond := { i.processedPerSecond with descr := {} }
  processedPerCollection := { i.processedPerCollection with descr := {} }
  droppedPerSecond := { i.droppedPerSecond with descr := {} }
  droppedPerCollection := { i.droppedPerCollection with descr := {} }
  enqueued := { i.enqueued with descr := {} }
  updatedPerSecond := { i.updatedPerSecond with descr := {} }
  snapshotsPerSecond := { i.snapshotsPerSecond with descr := {} }
  snapshotTimes := { i.snapshotTimes with descr := {} }
  droppedAlarm := { i.droppedAlarm with descr := {} }
  inactivityAlarm := { i.inactivityAlarm with descr := {} }
  ratioHisto := { i.ratioHisto with descr := {} }
  ratio := { i.ratio with descr := {} }

/-- The driver and everything in it without titles and descriptions. -/
def LoopState.undescribed (l : LoopState σ L) : LoopState σ L :=
  { l with
    descr := {}
    metrics := l.metrics.map DriverInstruments.undescribed
    processors := undescribedNodes l.processors
    snapshooters := undescribedSnapshooters l.snapshooters }

end Metrix
