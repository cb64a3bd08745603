import Verif.Proof.Routes
import Verif.Props.C51
import Verif.Props.C65

/-!
# C66 What is attached to a running driver is driven and shown

An attached mount is added to a driver, on its own or within other mounts. Its handles are used later, by any threads. A
processor that is attached, possibly via further attached mounts, is run once in each run of the driver from the run in which
it arrives, and shown where the names of the mounts on the way say. If nothing gets lost in its queue and the driver has run
often enough since then, each snapshot of the driver shows the totals of everything that was sent to it, also of what was sent
before the processor was attached.
-/

namespace Metrix
variable {σ L : Type} [DecidableEq L] [Custom σ L] [CustomProcessor σ]

variable {e : Env} {k k' : Nat} {name : Option String} {descr : Descr} {strategy : Strategy} {withMetrics : Bool}
  {handles : List (SendThread (DriverMsg σ L))} {t : DriverThread σ L} {before after : List (Iteration σ L)} {i : Iteration σ L}
  {l' : Loop σ L} {n : Node σ L} {route : List Step} {p : Processor σ L}

/-- `n` is added to a driver and `route` leads to the processor `p` that is, or will be, in it. As many runs of the driver as
`route` waits go by without `p`. In each run after these it is run once, with a maximum of 1000 messages and the strategy in
force. Apart from this only snapshots are taken of it. After these runs it is in what has become of `n`, within mounts of
the names on the route. -/
theorem C66_life (hc : CustomForward σ L) (hp : CustomProcessorForward σ)
    (hnew : NewDriver e k name descr strategy withMetrics handles t)
    (h : DriverLife e k t (before ++ i :: after) k' (.running l')) (hi : i.message = some (.addProcessor n))
    (hn : n.reach route = some (.processor p)) :
    ∃ k₁ calls n' p', k ≤ k₁ ∧ Life e k₁ p calls k' p' ∧
      RunsOnly calls (((strategiesIn (strategyAfter strategy (handled before)) (i :: after)).drop (waits route)).map
        fun s => (1000, s)) ∧
      l'.state.processors[(addedProcessors (handled before)).length]? = some n' ∧
      (waits route < (runsOf (i :: after)).length →
        ∃ way, n'.at way = some (.processor p') ∧ n'.mountsTo way = n.mountsVia route) := by
  obtain ⟨k₁, n', hk, hlead, hn'⟩ := h.added hc hp (Node.LeadsAll.stepWise hc hp e) hnew hi
  obtain ⟨calls, p', route', hl, hr, ha, hg, hw, harr, -⟩ := hlead route p hn
  refine ⟨k₁, calls, n', p', hk, hl, by rw [List.map_drop]; exact hr, hn', fun hlt => ?_⟩
  obtain ⟨way, rfl⟩ := harr (by rw [List.length_map, strategiesIn_length]; exact hlt)
  rw [Node.reach_here] at ha
  rw [Node.mountsVia_here] at hg
  exact ⟨way, ha, hg⟩

variable {programs : List (SendThread (Message σ L))}

/-- If the driver never drops observations because of their age and has run often enough since the processor arrived, everything
that was sent to the processor was processed. -/
theorem C66_complete (hc : CustomForward σ L) (hp : CustomProcessorForward σ)
    (hnew : NewDriver e k name descr .processAll withMetrics handles t)
    (h : DriverLife e k t (before ++ i :: after) k' (.running l')) (hi : i.message = some (.addProcessor n))
    (hn : n.reach route = some (.processor p)) (harrived : waits route < (runsOf (i :: after)).length)
    (hstrategy : ∀ s, DriverMsg.setStrategy s ∈ handled (before ++ i :: after) → s = .processAll)
    (hcomp : p.Completes programs ((runsOf (i :: after)).length - waits route)) :
    ∃ k₁ calls n' p' way, k ≤ k₁ ∧ CompleteRun e k₁ p calls k' p' programs ∧ (∀ c ∈ calls, ∀ s, c.call ≠ .setName s) ∧
      l'.state.processors[(addedProcessors (handled before)).length]? = some n' ∧ n'.at way = some (.processor p') ∧
      n'.mountsTo way = n.mountsVia route := by
  obtain ⟨k₁, calls, n', p', hk, hl, hr, hn', hway⟩ := C66_life hc hp hnew h hi hn
  obtain ⟨way, ha, hg⟩ := hway harrived
  have hall : ∀ s ∈ (strategiesIn (strategyAfter .processAll (handled before)) (i :: after)).drop (waits route), s = .processAll := by
    have hh : handled (before ++ i :: after) = handled before ++ handled (i :: after) := by
      simp [handled, List.filterMap_append]
    rw [hh] at hstrategy
    intro s hs
    exact strategiesIn_keeps (· = .processAll)
      (strategyAfter_keeps (· = .processAll) rfl fun s hs => hstrategy s (List.mem_append_left _ hs))
      (fun s hs => hstrategy s (List.mem_append_right _ hs)) s (List.mem_of_mem_drop hs)
  obtain ⟨h1, h2⟩ := complete_of_runs hl hr hall (by rw [List.length_drop, strategiesIn_length]; exact hcomp)
  exact ⟨k₁, calls, n', p', way, hk, h1, h2, hn', ha, hg⟩

/-- So everything in the processor has got exactly the observations that were sent and meant for it, in some order, and each
snapshot that the driver makes then shows it in its group. -/
theorem C66_shown (hc : CustomProper σ L) (mono : e.Mono)
    (hnew : NewDriver e k name descr .processAll withMetrics handles t)
    (h : DriverLife e k t (before ++ i :: after) k' (.running l')) (hi : i.message = some (.addProcessor n))
    (hn : n.reach route = some (.processor p)) (harrived : waits route < (runsOf (i :: after)).length)
    (hstrategy : ∀ s, DriverMsg.setStrategy s ∈ handled (before ++ i :: after) → s = .processAll)
    (hcomp : p.Completes programs ((runsOf (i :: after)).length - waits route))
    {place : Place} {path : List (LabelFilter L)} {leaf : Leaf σ L} (hplace : p.state.leafAt place = some (path, leaf))
    (hstays : place.Stays programs) {groups : List String} (hgroups : p.state.groupsAt place = some groups)
    {d : Bool} {k₂ k₃ : Nat} {l'' : LoopState σ L} {s : Snapshot} (hs : l'.state.makeSnapshot d e k₂ = some ((l'', s), k₃))
    (hvis : l'.state.AllVisible (e.clock k₃)) :
    ∃ k₁ log leaf', k ≤ k₁ ∧ History e k₁ leaf log k' leaf' ∧
      (inputs log).Perm ((observationsOf programs).filter fun o => path.all (·.accepts o.label)) ∧
      ∀ thing, leaf'.thing = some thing → ∃ j j' items, k₂ ≤ j ∧ j' ≤ k₃ ∧ thing.Put d e j items j' ∧
        s.ShowsAt (name.toList ++ n.mountsVia route ++ groups) items := by
  obtain ⟨k₁, calls, n', p', way, hk, hrun, hset, hn', ha, hg⟩ :=
    C66_complete hc.forward hc.processorForward hnew h hi hn harrived hstrategy hcomp
  obtain ⟨log, leaf', h1, h2, h3⟩ := shown_of_complete hc mono hrun hset hn' ha hplace hstays hgroups hs hvis
  rw [h.keepsName hnew, hg] at h3
  exact ⟨k₁, log, leaf', hk, h1, h2, h3⟩

/-- A counter: the answer to a caller who asks for a snapshot then shows, under its name in its group, what it started with plus
all occurrences that were sent and meant for it (in 64 bits). -/
theorem C66_answer (hc : CustomProper σ L) (mono : e.Mono)
    (hnew : NewDriver e k name descr .processAll withMetrics handles t)
    (h : DriverLife e k t (before ++ i :: after) k' (.running l')) (hi : i.message = some (.addProcessor n))
    (hn : n.reach route = some (.processor p)) (harrived : waits route < (runsOf (i :: after)).length)
    (hstrategy : ∀ s, DriverMsg.setStrategy s ∈ handled (before ++ i :: after) → s = .processAll)
    (hcomp : p.Completes programs ((runsOf (i :: after)).length - waits route))
    {place : Place} {path : List (LabelFilter L)} {f : LabelFilter L} {c : Counter}
    (hplace : p.state.leafAt place = some (path, .instrument ⟨f, .counter c, none⟩))
    (hstays : place.Stays programs) (hcount : c.count < 2 ^ 64) {groups : List String} (hgroups : p.state.groupsAt place = some groups)
    {k₂ k₃ : Nat} {t'' : DriverThread σ L} {next : Iteration σ L} {id : Nat} {s : Snapshot}
    (hnext : (DriverThread.running l').iterate e k₂ = (t'', some next, k₃)) (hanswer : next.answered = some (id, s))
    (hvis : l'.state.AllVisible (e.clock k₃)) :
    s.HasAt (name.toList ++ n.mountsVia route ++ groups) c.name
      (.uint ((c.count + ((observationsFor path f programs).map Observation.occurrences).sum) % 2 ^ 64)) := by
  obtain ⟨d, k₄, k₅, l'', hle, hmake⟩ := answer_made hc.forward hc.processorForward hnext hanswer
  obtain ⟨k₁, log, leaf', hk, hhist, hperm, hshow⟩ :=
    C66_shown hc mono hnew h hi hn harrived hstrategy hcomp hplace hstays hgroups hmake (hvis.earlier mono hle)
  exact counter_shown hcount hhist hperm hshow

/-! ## The handles -/

omit [DecidableEq L] [Custom σ L] [CustomProcessor σ] in
theorem mem_processors {x : Node σ L} {ms : List (Attach σ L)} (h : .processor x ∈ ms) : x ∈ Attach.processors ms := by
  induction ms with
  | nil => cases h
  | cons m ms ih =>
    rcases List.mem_cons.mp h with rfl | h₁
    · simp [Attach.processors]
    · cases m with
      | processor y => exact List.mem_cons_of_mem _ (ih h₁)
      | snapshooter s => exact ih h₁

omit [DecidableEq L] [Custom σ L] [CustomProcessor σ] in
theorem drains_arriving {x : Node σ L} (m : Nat) {hd : MountHead} {ns : List (Node σ L)} {ss : List (Snapshooter σ L)} {total : Nat}
    (hm : m ≤ total) (r : Receiver (Attach σ L)) : ∃ l, (r.drains m).chan.taken = r.chan.taken ++ l ∧
      (Attach.processor x ∈ l.map (·.2) →
        ∃ run q, run < m ∧ (Node.attached hd ns ss (r.inbox total)).next (.arriving run q) = some x) := by
  induction m generalizing r total with
  | zero => exact ⟨[], by simp [Receiver.drains], by simp⟩
  | succ m ih =>
    obtain ⟨total, rfl⟩ : ∃ j, total = j + 1 := ⟨total - 1, by omega⟩
    rcases hdr : r.drain with ⟨r', ms, closed⟩
    obtain ⟨⟨-, l₁, hl₁, ht₁⟩, hq, hcl⟩ := r.drain_ends hdr
    obtain ⟨l₂, ht₂, hnext⟩ := ih (by omega : m ≤ total) r'
    refine ⟨l₁ ++ l₂, by simp only [Receiver.drains, hdr]; rw [ht₂, ht₁, List.append_assoc], ?_⟩
    intro hx
    rw [List.map_append, List.mem_append] at hx
    rcases hx with hx | hx
    · rw [hl₁] at hx
      obtain ⟨q, hq⟩ := List.mem_iff_getElem?.mp (mem_processors hx)
      exact ⟨0, q, by omega, by simp [Node.next, Receiver.inbox, hdr, hq]⟩
    · cases closed with
      | true =>
        exfalso
        have : ∀ (m : Nat) (r : Receiver (Attach σ L)), r.chan.abandoned = true → r.chan.queue = [] →
            (r.drains m).chan = r.chan := by
          intro m
          induction m with
          | zero => intro r _ _; rfl
          | succ m ih =>
            intro r ha hq
            obtain ⟨h1, _⟩ := drain_abandoned ha hq
            simp only [Receiver.drains]
            rw [ih _ (by rw [h1]; exact ha) (by rw [h1]; exact hq), h1]
        rw [this m r' hcl hq] at ht₂
        have hnil : l₂ = [] := by simpa using ht₂
        rw [hnil] at hx; cases hx
      | false =>
        obtain ⟨run, q, hlt, hn⟩ := hnext hx
        refine ⟨run + 1, q, by omega, ?_⟩
        simp only [Node.next] at hn ⊢
        simp only [Receiver.inbox, hdr, Bool.false_eq_true, if_false, List.take_succ_cons, List.all_cons, Bool.not_false, Bool.true_and,
          List.getElem?_cons_succ]
        exact hn

omit [DecidableEq L] [Custom σ L] [CustomProcessor σ] in
/-- Every processor that a handle of an attached mount attaches arrives, under any schedule: a handle (number `t`) that has done
everything it was to do by the end of the `m`-th run has brought each of its processors by then. -/
theorem C66_arrives {m total : Nat} {hd : MountHead} {ns : List (Node σ L)} {ss : List (Snapshooter σ L)}
    {programs : List (SendThread (Attach σ L))} {ahead : List (List Nat)} {t : Nat} {x : Node σ L}
    (hm : 0 < m) (htotal : m ≤ total)
    (hdone : (Receiver.drains m ⟨.fresh none true programs, ahead⟩).chan.todo t = [])
    (hx : .processor x ∈ programOf programs t) :
    ∃ run q, run < m ∧
      (Node.attached hd ns ss (Receiver.inbox total ⟨.fresh none true programs, ahead⟩)).next (.arriving run q) = some x := by
  obtain ⟨ms, ht, hq⟩ := drains_took m ⟨.fresh none true programs, ahead⟩
  have hch : HandleChannel programs (Receiver.drains m ⟨.fresh none true programs, ahead⟩).chan :=
    HandleChannel.took ⟨[], by simp [NoDrop], rfl⟩ ht
  obtain ⟨h1, h2⟩ := C51_handles hch t
  rw [hq hm, hdone, List.append_nil] at *
  obtain ⟨l, h3, h4⟩ := drains_arriving (x := x) (hd := hd) (ns := ns) (ss := ss) m htotal ⟨.fresh none true programs, ahead⟩
  refine h4 ?_
  have hl : (Receiver.drains m ⟨.fresh none true programs, ahead⟩).chan.taken = l := by rw [h3]; rfl
  rw [hl] at h1
  rw [← h2, ← h1] at hx
  simp only [byThread, List.append_nil, List.filter_nil, List.map_nil] at hx
  obtain ⟨y, hy, he⟩ := List.mem_map.mp hx
  exact List.mem_map.mpr ⟨y, List.mem_of_mem_filter hy, he⟩

/-! ## Example

The processor of C65 is attached by a handle, in the second run of the driver, to an attached mount "a" within a mount "m" of a
driver "d". -/

def attaching : List (SendThread (Attach Empty Nat)) :=
  [{ todo := [.snapshooter (.constant "x" {} (.uint 1)), .processor (.processor deliveredProcessor)] }]

def attachSchedule : List (List Nat) := [[0], [], [0]]

def openNode : Node Empty Nat :=
  .mount { name := some "m", lastActivity := 0 }
    [.attached { name := some "a", lastActivity := 0 } [] [] (Receiver.inbox 4 ⟨.fresh none true attaching, attachSchedule⟩)] []

/-- It arrives in the second run. -/
example : openNode.reach [.here 0, .arriving 1 0] = some (.processor deliveredProcessor) ∧
    openNode.mountsVia [.here 0, .arriving 1 0] = ["m", "a"] ∧ waits [.here 0, .arriving 1 0] = 1 := ⟨rfl, rfl, rfl⟩

example : (Receiver.drains 2 ⟨.fresh none true attaching, attachSchedule⟩).chan.todo 0 = [] := rfl

example : Attach.processor (.processor deliveredProcessor) ∈ programOf attaching 0 := by simp [programOf, attaching]

def openDriver : DriverThread Empty Nat :=
  .running { state := { name := some "d", descr := {}, metrics := none, lastOutcomeLogged := -59300000000, strategy := .processAll }
             receiver := { chan := .fresh none true [{ todo := [.addProcessor openNode, .getSnapshot 0 false] }, { todo := [.getSnapshot 1 false] }]
                           ahead := [[0], [0], [], [], [1], []] } }

def openLog (n : Nat) : List (Iteration Empty Nat) := (openDriver.iterations n ticking 2).1

example : DriverLife ticking 2 openDriver (openLog 4) (openDriver.iterations 4 ticking 2).2.1
    (openDriver.iterations 4 ticking 2).2.2 := .ofIterations 4 openDriver ticking 2

example : (openLog 4).map (fun i => (addedProcessors i.message.toList).length) = [1, 0, 0, 0] ∧
    (runsOf (openLog 4)).length = 4 := by decide +kernel

/-- The snapshot before its arrival does not know the counter; the one later shows all 8 occurrences, added to the 1 that it
started with. -/
example : (answersIn (openLog 5)).map (fun a => (a.1, uintAt ["d", "m", "a"] "c" a.2)) = [(0, none), (1, some 9)] := by
  decide +kernel

end Metrix
