import Verif.Props.C05

/-! # C07: the outcome of a processing run accounts for what it did -/

namespace Metrix
variable {σ L : Type} [DecidableEq L] [Custom σ L]

omit [DecidableEq L] [Custom σ L] in
theorem length_dropped (ms : List (Message σ L × Verdict)) :
    (ms.filter fun m => !m.2.isDropped).length + (ms.filter fun m => m.2.isDropped).length = ms.length := by
  induction ms with
  | nil => rfl
  | cons m ms ih => cases hm : m.2.isDropped <;> simp [hm] <;> omega

theorem visited_length {e : Env} {o : Observation L} {k k' : Nat} {l l' : List (Placed σ L)} {ns : List Nat}
    (h : Visited e o k l l' ns k') : ns.length = l.length := by
  induction h with
  | nil => rfl
  | reached _ _ _ ih => simp [ih]
  | skipped _ _ ih => simp [ih]

/-- Any run on a processor that is not disconnected, whatever other threads do meanwhile. It took the messages `ms` from the
queue. At most `max` of them; each of them was processed or dropped; the dropped ones are exactly the observations
refused by the staleness rule; what was reported as updated is the sum of what the components reported for the processed
observations; and what was reported as enqueued is the length of the queue at the end. -/
theorem C07_outcome {p p' : Processor σ L} {max : Nat} {strategy : Strategy} {out : Outcome} {e : Env} {k k' : Nat}
    (h : p.process max strategy e k = some ((p', out), k')) (hc : p.isDisconnected = false) :
    ∃ (ms : List (Message σ L × Verdict)) (k₂ k₃ : Nat) (s₁ : ProcessorState σ L),
      Took p.receiver.chan p'.receiver.chan (ms.map (·.1)) ∧
      ms.length ≤ max ∧
      out.processed + out.dropped = ms.length ∧
      out.dropped = (ms.filter fun m => m.2.isDropped).length ∧
      (∀ m v, (m, v) ∈ ms → (v.isDropped = true ↔ ∃ o, m = .observation o ∧ ¬ strategy.Keeps (e.clock k) o)) ∧
      Applies e (strategy.Keeps (e.clock k)) k₂ p.state ms k₃ s₁ ∧
      out.instrumentsUpdated = (ms.map fun m => m.2.updated).sum ∧
      out.observationsEnqueued = p'.receiver.chan.queue.length := by
  obtain ⟨ms, k₂, k₃, s₁, _, _, hlen, happ, hacc, _, ht, henq, _⟩ := process_spec h
  refine ⟨ms, k₂, k₃, s₁, ht, hlen, ?_, hacc.dropped, ?_, happ, hacc.updated, henq hc⟩
  · rw [hacc.processed, hacc.dropped, length_dropped]
  · exact fun m v hm => applies_verdict happ hm

/-- What a processed observation counts: the sum of what the reached leaves of all cockpits and handlers reported. -/
theorem C07_updated {e : Env} {keeps : Observation L → Prop} {k k' : Nat} {s s' : ProcessorState σ L}
    {o : Observation L} {n : Nat} (h : Applied e keeps k s (.observation o) (.processed n) k' s') :
    ∃ ns, Visited e o k s.leaves s'.leaves ns k' ∧ n = ns.sum ∧ ns.length = s.leaves.length := by
  obtain ⟨ns, hv, hn, _⟩ := h.visited
  exact ⟨ns, hv, hn, visited_length hv⟩

/-- A run of a disconnected processor reports nothing. -/
theorem C07_disconnected (p : Processor σ L) (max : Nat) (strategy : Strategy) (e : Env) (k : Nat)
    (hc : p.isDisconnected = true) : p.process max strategy e k = some ((p, {}), k) := by
  simp [Processor.process, hc]

/-- Four messages, two of them dropped. Three are queued before the first is received, the last one arrives later. -/
example : (exampleProcessor.process 3 .default ticking 1).map (fun r => (r.1.2, r.1.1.receiver.chan.queue.length)) =
    some (⟨2, 1, 4, 1⟩, 1) := rfl

/-- The loop goes on after it found the queue empty: it tries `max` times. -/
example : (Processor.process { exampleProcessor with receiver :=
      { exampleProcessor.receiver with ahead := [[], [], [0], [], [0, 0, 0]] } }
    4 .processAll ticking 1).map (fun r => (r.1.2, r.1.1.receiver.chan.queue.length)) = some (⟨1, 0, 1, 3⟩, 3) := rfl

example := C07_outcome (p := exampleProcessor) (max := 3) (strategy := .default) (e := ticking) (k := 1) rfl rfl
example := C07_disconnected { exampleProcessor with isDisconnected := true } 3 .default ticking 1 rfl
example := C07_updated (e := ticking) (k := 1) (keeps := fun _ => True) (s := exampleProcessor.state) (o := .observedOne 2 0)
  (.processed trivial .nil (.cons rfl (.cons rfl .nil)))

end Metrix
