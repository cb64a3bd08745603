import Verif.Proof.Delivery
import Verif.Proof.LeafGroups
import Verif.Props.C53
import Verif.Props.C59
import Verif.Props.C60

/-!
# C65 What was sent arrives in the snapshots of the driver

A processor is added to a driver, on its own or within mounts. From then on it is run once, with at most 1000 messages, in each
run of the driver. If nothing gets lost in its queue and the driver has run often enough, each snapshot of the driver shows the
totals of everything that was sent, in the group named after the driver, the mounts, the processor and the containers in it.
-/

namespace Metrix
variable {σ L : Type} [DecidableEq L] [Custom σ L] [CustomProcessor σ]

theorem DriverLife.split {e : Env} {k k' : Nat} {t t' : DriverThread σ L} {a b : List (Iteration σ L)}
    (h : DriverLife e k t (a ++ b) k' t') : ∃ k₁ t₁, DriverLife e k t a k₁ t₁ ∧ DriverLife e k₁ t₁ b k' t' := by
  generalize hl : a ++ b = log at h
  induction h generalizing a with
  | nil hk =>
    obtain ⟨rfl, rfl⟩ := List.append_eq_nil_iff.mp hl
    exact ⟨_, _, .nil (Nat.le_refl _), .nil hk⟩
  | @iteration k k₁ k₂ k' t t₁ t' i log hk hi h ih =>
    cases a with
    | nil =>
      simp only [List.nil_append] at hl
      subst hl
      exact ⟨k, t, .nil (Nat.le_refl _), .iteration hk hi h⟩
    | cons x a =>
      simp only [List.cons_append, List.cons.injEq] at hl
      obtain ⟨rfl, hl⟩ := hl
      obtain ⟨k₃, t₃, h1, h2⟩ := ih hl
      exact ⟨k₃, t₃, .iteration hk hi h1, h2⟩
  | over hk hi h ih =>
    obtain ⟨k₃, t₃, h1, h2⟩ := ih hl
    exact ⟨k₃, t₃, .over hk hi h1, h2⟩
  | others h ih =>
    obtain ⟨k₃, t₃, h1, h2⟩ := ih hl
    exact ⟨k₃, t₃, .others h1, h2⟩

theorem DriverLife.le (hc : CustomForward σ L) (hp : CustomProcessorForward σ) {e : Env} {k k' : Nat} {t t' : DriverThread σ L}
    {log : List (Iteration σ L)} (h : DriverLife e k t log k' t') : k ≤ k' := by
  have step : ∀ {k k' : Nat} {t t₁ : DriverThread σ L} {i}, t.iterate e k = (t₁, i, k') → k ≤ k' := by
    intro k k' t t₁ i h
    cases t with
    | ended c => unfold DriverThread.iterate at h; simp at h; omega
    | running l =>
      cases iterates h with
      | stop _ => exact Nat.le_refl _
      | panicEarly _ _ => exact Nat.le_refl _
      | panicLate _ hb _ => exact (keeps_begin hc hp (Node.Keeps.stepWise hc hp e []) 0 hb).1
      | done _ hb hw => exact Nat.le_trans (keeps_begin hc hp (Node.Keeps.stepWise hc hp e []) 0 hb).1 (keeps_work hc hp (Node.Keeps.stepWise hc hp e []) 0 hw).1
  induction h with
  | nil hk => exact hk
  | iteration hk hi h ih => have := step hi; omega
  | over hk hi h ih => have := step hi; omega
  | others h ih => exact ih

/-- The first iteration of a thread that still runs afterwards. -/
theorem DriverLife.next {e : Env} {k₁ k' : Nat} {t₁ : DriverThread σ L} {i : Iteration σ L} {after log : List (Iteration σ L)}
    {l' : Loop σ L} (h : DriverLife e k₁ t₁ log k' (.running l')) (hlog : log = i :: after) :
    ∃ l₁ k₂ k₃ t₂, t₁ = .running l₁ ∧ k₁ ≤ k₂ ∧ (DriverThread.running l₁).iterate e k₂ = (t₂, some i, k₃) ∧
      DriverLife e k₃ t₂ after k' (.running l') := by
  generalize ht : DriverThread.running l' = t' at h
  revert hlog ht
  induction h with
  | nil => rintro h; cases h
  | @iteration k k₁ k₂ k' t t₁ t' i log hk hi hl ih =>
    intro h ht
    cases h
    subst ht
    cases t with
    | ended c => have := (iterate_ended hi).2.1; simp at this
    | running l₁ => exact ⟨l₁, k₁, k₂, t₁, rfl, hk, hi, hl⟩
  | @over k k₁ k₂ k' t t₁ t' log hk hi hl ih =>
    rintro hlog rfl
    obtain ⟨l₁, _, _, _, rfl, _⟩ := ih hlog rfl
    cases t with
    | ended c => have := (iterate_ended hi).1; simp at this
    | running l₂ => cases iterates hi
  | @others k k' c s log t' hl ih =>
    intro hlog ht
    obtain ⟨l₁, _, _, _, hh, _⟩ := ih hlog ht
    cases hh

variable {e : Env} {k k' : Nat} {name : Option String} {descr : Descr} {strategy : Strategy} {withMetrics : Bool}
  {handles : List (SendThread (DriverMsg σ L))} {t : DriverThread σ L} {before after : List (Iteration σ L)} {i : Iteration σ L}
  {l' : Loop σ L} {n : Node σ L} {way : List Nat} {p : Processor σ L}

/-- What becomes of something that is added to a driver. -/
theorem DriverLife.added (hc : CustomForward σ L) (hp : CustomProcessorForward σ)
    {R : List (Nat × Strategy) → Nat → Node σ L → Nat → Node σ L → Prop} (hR : StepWise e R)
    (hnew : NewDriver e k name descr strategy withMetrics handles t)
    (h : DriverLife e k t (before ++ i :: after) k' (.running l')) (hi : i.message = some (.addProcessor n)) :
    ∃ k₁ n', k ≤ k₁ ∧
      R ((strategiesIn (strategyAfter strategy (handled before)) (i :: after)).map fun s => (1000, s)) k₁ n k' n' ∧
      l'.state.processors[(addedProcessors (handled before)).length]? = some n' := by
  obtain ⟨k₁, t₁, h1, h2⟩ := h.split
  have hk1 := h1.le hc hp
  obtain ⟨l₀, rfl, hchan, h0⟩ := hnew.fromMessages
  obtain ⟨l₁, k₂, k₃, t₂, rfl, hk2, hit, h3⟩ := h2.next rfl
  have hfrom := h1.fromMessages (fun l hl => by cases hl; exact h0) l₁ rfl
  rw [List.nil_append] at hfrom
  have hlen : l₁.state.processors.length = (addedProcessors (handled before)).length := hfrom.processors.length_eq.symm
  cases iterates hit with
  | panicEarly _ _ => obtain ⟨_, s, hh⟩ := h3.ended rfl; cases hh
  | panicLate _ _ _ => obtain ⟨_, s, hh⟩ := h3.ended rfl; cases hh
  | done hpl hb hw =>
    rename_i r m s started answer k₄ s' outcome rest
    simp only at hi
    subst hi
    rcases (begin_spec hb).2 with ⟨hm, _⟩ | ⟨m', hm, hh⟩
    · cases hm
    · cases hm
      simp only [LoopState.handle, M.run_pure, Option.some.injEq, Prod.mk.injEq] at hh
      obtain ⟨⟨rfl, rfl⟩, rfl⟩ := hh
      obtain ⟨w1, w2, w3⟩ := keeps_work hc hp hR l₁.state.processors.length hw
      have w4 := (w2.trans hR (DriverLife.keeps hc hp hR l₁.state.processors.length h3)) n (by simp)
      obtain ⟨n', hn', hr⟩ := w4
      refine ⟨k₂ + 1, n', ?_, ?_, by rw [← hlen]; exact hn'⟩
      rotate_left
      · have hs : strategyAfter (strategyAfter strategy (handled before)) [DriverMsg.addProcessor n] = l₁.state.strategy := by
          rw [hfrom.strategy]; simp [strategyAfter]
        simp only at w3
        simp only [strategiesIn, Option.toList_some, hs, List.map_append]
        rw [w3] at hr
        simp only at hr
        refine cast ?_ hr
        congr 2
        cases outcome <;> rfl
      · omega

/-- A processor that is added to a driver, on its own or within mounts (`way`), stays at its place. It is run with a maximum of
1000 messages and the strategy in force once in each run of the driver, from the one of its addition on. Apart from this only
snapshots are taken of it. The names of the mounts around it stay the same. -/
theorem C65_life (hc : CustomForward σ L) (hp : CustomProcessorForward σ)
    (hnew : NewDriver e k name descr strategy withMetrics handles t)
    (h : DriverLife e k t (before ++ i :: after) k' (.running l')) (hi : i.message = some (.addProcessor n))
    (hn : n.at way = some (.processor p)) :
    ∃ k₁ calls n' p', k ≤ k₁ ∧ Life e k₁ p calls k' p' ∧
      RunsOnly calls ((strategiesIn (strategyAfter strategy (handled before)) (i :: after)).map fun s => (1000, s)) ∧
      l'.state.processors[(addedProcessors (handled before)).length]? = some n' ∧ n'.at way = some (.processor p') ∧
      n'.mountsTo way = n.mountsTo way := by
  obtain ⟨k₁, n', hk, hkeep, hn'⟩ := h.added hc hp (Node.Keeps.stepWise hc hp e way) hnew hi
  obtain ⟨calls, p', hl, hr, ha, hg⟩ := hkeep p hn
  exact ⟨k₁, calls, n', p', hk, hl, hr, hn', ha, hg⟩

omit [DecidableEq L] [Custom σ L] [CustomProcessor σ] in
theorem strategiesIn_length (s : Strategy) (log : List (Iteration σ L)) : (strategiesIn s log).length = (runsOf log).length := by
  induction log generalizing s with
  | nil => rfl
  | cons i log ih =>
    simp only [strategiesIn, List.length_append, ih, runsOf, List.filterMap_cons]
    cases i.outcome <;> simp [Nat.add_comm]

omit [DecidableEq L] [Custom σ L] [CustomProcessor σ] in
theorem strategyAfter_keeps {s : Strategy} {ms : List (DriverMsg σ L)} (P : Strategy → Prop) (hs : P s)
    (h : ∀ s, DriverMsg.setStrategy s ∈ ms → P s) : P (strategyAfter s ms) := by
  unfold strategyAfter
  generalize hf : (ms.filterMap fun m => match m with
    | .setStrategy s => some s
    | _ => none) = l
  cases hl : l.getLast? with
  | none => exact hs
  | some x =>
    have hx := List.mem_of_getLast? hl
    rw [← hf] at hx
    obtain ⟨m, hm, hx⟩ := List.mem_filterMap.mp hx
    cases m with
    | setStrategy s' => cases hx; exact h _ hm
    | _ => cases hx

omit [DecidableEq L] [Custom σ L] [CustomProcessor σ] in
theorem strategiesIn_keeps {s : Strategy} {log : List (Iteration σ L)} (P : Strategy → Prop) (hs : P s)
    (h : ∀ s, DriverMsg.setStrategy s ∈ handled log → P s) : ∀ x ∈ strategiesIn s log, P x := by
  induction log generalizing s with
  | nil => intro x hx; cases hx
  | cons i log ih =>
    have h1 : P (strategyAfter s i.message.toList) := strategyAfter_keeps P hs fun x hx => h x (by
      cases hm : i.message with
      | none => rw [hm] at hx; cases hx
      | some m => rw [hm] at hx; simp only [handled, List.filterMap_cons, hm]; simp at hx; simp [hx])
    intro x hx
    simp only [strategiesIn, List.mem_append] at hx
    rcases hx with hx | hx
    · split at hx
      · rw [List.mem_singleton] at hx; rw [hx]; exact h1
      · cases hx
    · refine ih h1 (fun s hs => h s ?_) x hx
      simp only [handled, List.filterMap_cons]
      cases i.message with
      | none => exact hs
      | some m => exact List.mem_cons_of_mem _ hs

omit [DecidableEq L] [Custom σ L] [CustomProcessor σ] in
theorem RunsOnly.sums {calls : List (Called σ L)} {runs : List (Nat × Strategy)} (h : RunsOnly calls runs) :
    (calls.map (·.call.polls)).sum = (runs.map (·.1)).sum ∧ (calls.map (·.call.uses)).sum = (runs.map (·.1 + 1)).sum := by
  rw [← h.runs]
  clear h
  induction calls with
  | nil => exact ⟨rfl, rfl⟩
  | cons c calls ih =>
    simp only [List.map_cons, List.sum_cons, List.filterMap_cons]
    obtain ⟨s, call, r⟩ := c
    cases call with
    | process max st =>
      exact ⟨congrArg (max + ·) ih.1, congrArg (max + 1 + ·) ih.2⟩
    | _ => simpa [Call.run?, Call.polls, Call.uses] using ih

/-- Everything that the threads in `programs` send to the processor `p` can be processed in `runs` runs of a driver: its queue,
which is new, loses nothing, all threads get the chance to send before each poll, and there are at most 1000 messages per run. -/
structure Processor.Completes (p : Processor σ L) (programs : List (SendThread (Message σ L))) (runs : Nat) : Prop where
  fresh : ∃ cap useSend, p.receiver.chan = .fresh cap useSend programs ∧ (useSend = true ∨ cap = none) ∧ cap ≠ some 0
  connected : p.isDisconnected = false
  holding : ∀ th ∈ programs, th.holds = true
  fair : p.receiver.Fair (1001 * runs)
  enough : (programs.map (·.todo.length)).sum ≤ 1000 * runs

variable {programs : List (SendThread (Message σ L))}

omit [DecidableEq L] [Custom σ L] [CustomProcessor σ] in
theorem RunsOnly.amounts {calls : List (Called σ L)} {ss : List Strategy} (hr : RunsOnly calls (ss.map fun s => (1000, s))) :
    (calls.map (·.call.polls)).sum = 1000 * ss.length ∧ (calls.map (·.call.uses)).sum = 1001 * ss.length := by
  obtain ⟨s1, s2⟩ := hr.sums
  rw [List.map_map] at s1 s2
  rw [s1, s2]
  constructor <;> simp [Function.comp_def, Nat.mul_comm]

omit [CustomProcessor σ] in
/-- Whatever the strategies: everything was taken from the queue. -/
theorem story_of_runs {p p' : Processor σ L} {calls : List (Called σ L)} {ss : List Strategy} (hl : Life e k p calls k' p')
    (hr : RunsOnly calls (ss.map fun s => (1000, s))) (hcomp : p.Completes programs ss.length) :
    ∃ consumed, Story e k p.state calls consumed k' p'.state ∧
      (consumed.flatten.map (·.1)).Perm (programs.flatMap (·.todo)) := by
  obtain ⟨s1, s2⟩ := hr.amounts
  exact hl.story hcomp.fresh hcomp.connected hcomp.holding (by rw [s2]; exact hcomp.fair) (by rw [s1]; exact hcomp.enough)

omit [CustomProcessor σ] in
theorem complete_of_runs {p p' : Processor σ L} {calls : List (Called σ L)} {ss : List Strategy} (hl : Life e k p calls k' p')
    (hr : RunsOnly calls (ss.map fun s => (1000, s))) (hall : ∀ s ∈ ss, s = .processAll) (hcomp : p.Completes programs ss.length) :
    CompleteRun e k p calls k' p' programs ∧ ∀ c ∈ calls, ∀ s, c.call ≠ .setName s := by
  obtain ⟨s1, s2⟩ := hr.amounts
  refine ⟨⟨hl, hcomp.fresh, hcomp.connected, hcomp.holding, by rw [s2]; exact hcomp.fair, by rw [s1]; exact hcomp.enough, ?_⟩, ?_⟩
  · intro c hcm max st hcall
    have : (max, st) ∈ ss.map fun s => (1000, s) := by
      rw [← hr.runs]
      exact List.mem_filterMap.mpr ⟨c, hcm, by rw [hcall]; rfl⟩
    obtain ⟨s, hs, heq⟩ := List.mem_map.mp this
    cases heq
    exact hall _ hs
  · intro c hcm s hcall
    obtain ⟨into, d, h⟩ := hr.others c hcm (by rw [hcall]; rfl)
    rw [hcall] at h; cases h

/-- If the driver never drops observations because of their age and has run often enough, everything that was sent to the
processor was processed. -/
theorem C65_complete (hc : CustomForward σ L) (hp : CustomProcessorForward σ)
    (hnew : NewDriver e k name descr .processAll withMetrics handles t)
    (h : DriverLife e k t (before ++ i :: after) k' (.running l')) (hi : i.message = some (.addProcessor n))
    (hn : n.at way = some (.processor p))
    (hstrategy : ∀ s, DriverMsg.setStrategy s ∈ handled (before ++ i :: after) → s = .processAll)
    (hcomp : p.Completes programs (runsOf (i :: after)).length) :
    ∃ k₁ calls n' p', k ≤ k₁ ∧ CompleteRun e k₁ p calls k' p' programs ∧ (∀ c ∈ calls, ∀ s, c.call ≠ .setName s) ∧
      l'.state.processors[(addedProcessors (handled before)).length]? = some n' ∧ n'.at way = some (.processor p') ∧
      n'.mountsTo way = n.mountsTo way := by
  obtain ⟨k₁, calls, n', p', hk, hl, hr, hn', ha, hg⟩ := C65_life hc hp hnew h hi hn
  have hall : ∀ s ∈ strategiesIn (strategyAfter .processAll (handled before)) (i :: after), s = .processAll := by
    have hh : handled (before ++ i :: after) = handled before ++ handled (i :: after) := by
      simp [handled, List.filterMap_append]
    rw [hh] at hstrategy
    exact strategiesIn_keeps (· = .processAll)
      (strategyAfter_keeps (· = .processAll) rfl fun s hs => hstrategy s (List.mem_append_left _ hs))
      fun s hs => hstrategy s (List.mem_append_right _ hs)
  obtain ⟨h1, h2⟩ := complete_of_runs hl hr hall (by rw [strategiesIn_length]; exact hcomp)
  exact ⟨k₁, calls, n', p', hk, h1, h2, hn', ha, hg⟩

omit [DecidableEq L] [Custom σ L] [CustomProcessor σ] in
theorem mem_exhibitsOfNodes {ns : List (Node σ L)} {n : Node σ L} (hx : n ∈ ns) {y : Exhibit (MountedThing σ L)}
    (hy : y ∈ n.exhibits) : y ∈ exhibitsOfNodes ns := by
  induction ns with
  | nil => cases hx
  | cons h hs ih =>
    rw [exhibitsOfNodes]
    rcases List.mem_cons.mp hx with rfl | hx
    · exact List.mem_append_left _ hy
    · exact List.mem_append_right _ (ih hx)

omit [DecidableEq L] [Custom σ L] [CustomProcessor σ] in
theorem Node.exhibits_at {n : Node σ L} {way : List Nat} {p : Processor σ L} (hn : n.at way = some (.processor p))
    {g : List String} {around : List Activity} {x : Snapshooter σ L} (hx : ⟨g, around, x⟩ ∈ p.state.exhibits) :
    ∃ around, ⟨n.mountsTo way ++ g, around, .part x⟩ ∈ n.exhibits := by
  induction way generalizing n with
  | nil =>
    simp only [Node.at, Option.some.injEq] at hn
    subst hn
    exact ⟨around, by rw [Node.exhibits]; exact List.mem_map.mpr ⟨_, hx, rfl⟩⟩
  | cons j way ih =>
    simp only [Node.at, Option.bind_eq_some_iff] at hn
    obtain ⟨m, hm, hn⟩ := hn
    obtain ⟨ar, h⟩ := ih hn
    have h2 := mem_exhibitsOfNodes (List.mem_of_getElem? hm) h
    simp only [Node.mountsTo, hm, Option.map_some, Option.getD_some, List.append_assoc]
    cases n with
    | mount hd ns ss =>
      exact ⟨hd.activity :: ar, by rw [Node.exhibits]; exact List.mem_map.mpr ⟨_, List.mem_append_left _ h2, rfl⟩⟩
    | attached hd ns ss inbox =>
      exact ⟨hd.activity :: ar, by rw [Node.exhibits]; exact List.mem_map.mpr ⟨_, List.mem_append_left _ h2, rfl⟩⟩
    | _ => simp [Node.children] at hm

/-- What is at a place in a processor of the driver is shown in its group, if it stayed there. -/
theorem seen_of_story (hc : CustomProper σ L) (mono : e.Mono) {k₁ : Nat} {p' : Processor σ L} {n' : Node σ L}
    {calls : List (Called σ L)} {consumed : List (List (Message σ L × Verdict))} {index : Nat}
    (hst : Story e k₁ p.state calls consumed k' p'.state) (hset : ∀ c ∈ calls, ∀ s, c.call ≠ .setName s)
    {l : LoopState σ L} (hn' : l.processors[index]? = some n') (ha : n'.at way = some (.processor p'))
    {place : Place} {path : List (LabelFilter L)} {leaf' : Leaf σ L} (hrem : ∀ m ∈ consumed.flatten, ¬ place.RemovedBy m.1)
    {groups : List String} (hgroups : p.state.groupsAt place = some groups)
    {d : Bool} {k₂ k₃ : Nat} {l'' : LoopState σ L} {s : Snapshot} (hs : l.makeSnapshot d e k₂ = some ((l'', s), k₃))
    (hvis : l.AllVisible (e.clock k₃)) (h2 : p'.state.leafAt place = some (path, leaf')) {thing : Snapshooter σ L}
    (ht : leaf'.thing = some thing) :
    ∃ j j' items, k₂ ≤ j ∧ j' ≤ k₃ ∧ thing.Put d e j items j' ∧
      s.ShowsAt (l.name.toList ++ n'.mountsTo way ++ groups) items := by
  have hgr : p'.state.groupsAt place = some groups := Trail.groupsAt hc.forward hst.trail (hst.name hset) hgroups hrem
  obtain ⟨around, hx⟩ := ProcessorState.shownAt h2 hgr ht
  obtain ⟨around, hx⟩ := Node.exhibits_at ha hx
  have hx := mem_exhibitsOfNodes (List.mem_of_getElem? hn') hx
  have hx : (⟨l.name.toList ++ n'.mountsTo way ++ groups, around, .part thing⟩ : Exhibit (MountedThing σ L)) ∈ l.exhibits := by
    refine List.mem_map.mpr ⟨_, List.mem_append_left _ (List.mem_append_left _ hx), ?_⟩
    simp only [Exhibit.inside, List.append_assoc, Option.toList_none, List.nil_append]
  obtain ⟨j, j', items, hj, hj', hput, hshow⟩ := (C59_driver hc mono hs).shown _ hx (hvis _ hx)
  exact ⟨j, j', items, hj, hj', hput, hshow⟩

omit [DecidableEq L] [Custom σ L] [CustomProcessor σ] in
theorem Place.Stays.consumed {place : Place} (hstays : place.Stays programs) {consumed : List (List (Message σ L × Verdict))}
    (hperm : (consumed.flatten.map (·.1)).Perm (programs.flatMap (·.todo))) :
    ∀ m ∈ consumed.flatten, ¬ place.RemovedBy m.1 := by
  intro m hm
  have : m.1 ∈ programs.flatMap (·.todo) := hperm.mem_iff.mp (List.mem_map_of_mem hm)
  obtain ⟨th, hth, hm⟩ := List.mem_flatMap.mp this
  exact hstays th hth _ hm

theorem shown_of_complete (hc : CustomProper σ L) (mono : e.Mono) {k₁ : Nat} {p' : Processor σ L} {n' : Node σ L}
    {calls : List (Called σ L)} {index : Nat}
    (hrun : CompleteRun e k₁ p calls k' p' programs) (hset : ∀ c ∈ calls, ∀ s, c.call ≠ .setName s)
    {l : LoopState σ L} (hn' : l.processors[index]? = some n') (ha : n'.at way = some (.processor p'))
    {place : Place} {path : List (LabelFilter L)} {leaf : Leaf σ L} (hplace : p.state.leafAt place = some (path, leaf))
    (hstays : place.Stays programs) {groups : List String} (hgroups : p.state.groupsAt place = some groups)
    {d : Bool} {k₂ k₃ : Nat} {l'' : LoopState σ L} {s : Snapshot} (hs : l.makeSnapshot d e k₂ = some ((l'', s), k₃))
    (hvis : l.AllVisible (e.clock k₃)) :
    ∃ log leaf', History e k₁ leaf log k' leaf' ∧
      (inputs log).Perm ((observationsOf programs).filter fun o => path.all (·.accepts o.label)) ∧
      ∀ thing, leaf'.thing = some thing → ∃ j j' items, k₂ ≤ j ∧ j' ≤ k₃ ∧ thing.Put d e j items j' ∧
        s.ShowsAt (l.name.toList ++ n'.mountsTo way ++ groups) items := by
  obtain ⟨log, leaf', h1, h2, h3⟩ := C60_arrival hc.forward hrun hplace hstays
  refine ⟨log, leaf', h1, h3, ?_⟩
  intro thing ht
  obtain ⟨consumed, hst, hperm⟩ := hrun.story
  exact seen_of_story hc mono hst hset hn' ha (hstays.consumed hperm) hgroups hs hvis h2 ht

theorem DriverLife.keepsName (hnew : NewDriver e k name descr strategy withMetrics handles t) {log : List (Iteration σ L)}
    (h : DriverLife e k t log k' (.running l')) : l'.state.name = name := by
  obtain ⟨l₀, rfl, _, h0⟩ := hnew.fromMessages
  exact (h.fromMessages (fun l hl => by cases hl; exact h0) l' rfl).name

/-- So everything in the processor has got exactly the observations that were sent and meant for it, in some order, and each
snapshot that the driver makes then shows it in its group. -/
theorem C65_shown (hc : CustomProper σ L) (mono : e.Mono)
    (hnew : NewDriver e k name descr .processAll withMetrics handles t)
    (h : DriverLife e k t (before ++ i :: after) k' (.running l')) (hi : i.message = some (.addProcessor n))
    (hn : n.at way = some (.processor p))
    (hstrategy : ∀ s, DriverMsg.setStrategy s ∈ handled (before ++ i :: after) → s = .processAll)
    (hcomp : p.Completes programs (runsOf (i :: after)).length)
    {place : Place} {path : List (LabelFilter L)} {leaf : Leaf σ L} (hplace : p.state.leafAt place = some (path, leaf))
    (hstays : place.Stays programs) {groups : List String} (hgroups : p.state.groupsAt place = some groups)
    {d : Bool} {k₂ k₃ : Nat} {l'' : LoopState σ L} {s : Snapshot} (hs : l'.state.makeSnapshot d e k₂ = some ((l'', s), k₃))
    (hvis : l'.state.AllVisible (e.clock k₃)) :
    ∃ k₁ log leaf', k ≤ k₁ ∧ History e k₁ leaf log k' leaf' ∧
      (inputs log).Perm ((observationsOf programs).filter fun o => path.all (·.accepts o.label)) ∧
      ∀ thing, leaf'.thing = some thing → ∃ j j' items, k₂ ≤ j ∧ j' ≤ k₃ ∧ thing.Put d e j items j' ∧
        s.ShowsAt (name.toList ++ n.mountsTo way ++ groups) items := by
  obtain ⟨k₁, calls, n', p', hk, hrun, hset, hn', ha, hg⟩ :=
    C65_complete hc.forward hc.processorForward hnew h hi hn hstrategy hcomp
  obtain ⟨log, leaf', h1, h2, h3⟩ := shown_of_complete hc mono hrun hset hn' ha hplace hstays hgroups hs hvis
  rw [h.keepsName hnew, hg] at h3
  exact ⟨k₁, log, leaf', hk, h1, h2, h3⟩

/-- The counter that got the observations meant for it shows the sum. -/
theorem counter_shown {k₁ k₂ k₃ : Nat} {path : List (LabelFilter L)} {f : LabelFilter L} {c : Counter} {d : Bool} {s : Snapshot}
    {log : List (Event (Observation L))} {leaf' : Leaf σ L} {g : List String} (hcount : c.count < 2 ^ 64)
    (hhist : History e k₁ (Leaf.instrument ⟨f, .counter c, none⟩) log k' leaf')
    (hperm : (inputs log).Perm ((observationsOf programs).filter fun o => path.all (·.accepts o.label)))
    (hshow : ∀ thing, leaf'.thing = some thing → ∃ j j' items, k₂ ≤ j ∧ j' ≤ k₃ ∧ thing.Put d e j items j' ∧ s.ShowsAt g items) :
    s.HasAt g c.name (.uint ((c.count + ((observationsFor path f programs).map Observation.occurrences).sum) % 2 ^ 64)) := by
  obtain ⟨c', l₂, rfl, h5, h6⟩ := leaf_instrument .counter (fun _ _ => rfl) (fun _ _ _ => rfl) hhist
  have hin : (inputs l₂).Perm ((observationsFor path f programs).map Observation.content) := by
    rw [h6]
    refine List.Perm.map _ ?_
    have := hperm.filter fun o => f.accepts o.label
    rw [List.filter_filter] at this
    refine this.trans (List.Perm.of_eq ?_)
    unfold observationsFor
    refine List.filter_congr fun o _ => ?_
    rw [Bool.and_comm]
  have hcount' : c'.count = (c.count + ((observationsFor path f programs).map Observation.occurrences).sum) % 2 ^ 64 := by
    rw [(C21_counter_counts h5 hcount).1, (hin.map _).sum_eq, List.map_map]
    congr 3
    refine List.map_congr_left fun o _ => ?_
    cases o <;> rfl
  obtain ⟨j, j', items, _, _, hput, level, hg, hi⟩ := hshow _ rfl
  have hname : c'.name = c.name := by
    refine History.preserves (fun x : Counter => x.name = c.name) ?_ h5 rfl
    intro x op e k x' out k' hx hs
    cases op with
    | input u =>
      obtain ⟨n, _, hs⟩ := step_input_eq_some.mp hs
      obtain ⟨-, -, rfl, -⟩ := Counter.update_eq_some hs
      exact hx
    | snapshot s d =>
      obtain ⟨n, _, hs⟩ := step_snapshot_eq_some.mp hs
      exact (keeping_eq_some.mp hs).1 ▸ hx
  have := Counter.put_item rfl hput
  rw [hname, hcount'] at this
  exact ⟨level, hg, hi.subset this⟩

/-- A counter: each snapshot shows, under its name in its group, what it started with plus all occurrences that were sent and
meant for it (in 64 bits). -/
theorem C65_counter (hc : CustomProper σ L) (mono : e.Mono)
    (hnew : NewDriver e k name descr .processAll withMetrics handles t)
    (h : DriverLife e k t (before ++ i :: after) k' (.running l')) (hi : i.message = some (.addProcessor n))
    (hn : n.at way = some (.processor p))
    (hstrategy : ∀ s, DriverMsg.setStrategy s ∈ handled (before ++ i :: after) → s = .processAll)
    (hcomp : p.Completes programs (runsOf (i :: after)).length)
    {place : Place} {path : List (LabelFilter L)} {f : LabelFilter L} {c : Counter}
    (hplace : p.state.leafAt place = some (path, .instrument ⟨f, .counter c, none⟩))
    (hstays : place.Stays programs) (hcount : c.count < 2 ^ 64) {groups : List String} (hgroups : p.state.groupsAt place = some groups)
    {d : Bool} {k₂ k₃ : Nat} {l'' : LoopState σ L} {s : Snapshot} (hs : l'.state.makeSnapshot d e k₂ = some ((l'', s), k₃))
    (hvis : l'.state.AllVisible (e.clock k₃)) :
    s.HasAt (name.toList ++ n.mountsTo way ++ groups) c.name
      (.uint ((c.count + ((observationsFor path f programs).map Observation.occurrences).sum) % 2 ^ 64)) := by
  obtain ⟨k₁, log, leaf', hk, hhist, hperm, hshow⟩ :=
    C65_shown hc mono hnew h hi hn hstrategy hcomp hplace hstays hgroups hs hvis
  exact counter_shown hcount hhist hperm hshow

/-- An answer is a snapshot that was made in the iteration. -/
theorem answer_made (hc : CustomForward σ L) (hp : CustomProcessorForward σ) {k₂ k₃ : Nat} {t'' : DriverThread σ L}
    {next : Iteration σ L} {id : Nat} {s : Snapshot} (hnext : (DriverThread.running l').iterate e k₂ = (t'', some next, k₃))
    (hanswer : next.answered = some (id, s)) :
    ∃ d k₄ k₅ l'', k₅ ≤ k₃ ∧ l'.state.makeSnapshot d e k₄ = some ((l'', s), k₅) := by
  have begun : ∀ {m s' started answer k₄ o rest}, l'.state.begin m e k₂ = some ((s', started, answer), k₄) →
      Iteration.answered { message := m, answer, outcome := o, rest } = some (id, s) →
      ∃ d k₅ l'', l'.state.makeSnapshot d e k₅ = some ((l'', s), k₄) := by
    intro m s' started answer k₄ o rest hb ha
    rcases (begin_spec hb).2 with ⟨rfl, _⟩ | ⟨m', rfl, hh⟩
    · simp [Iteration.answered] at ha
    · cases m' with
      | getSnapshot id' d =>
        simp only [LoopState.handle, M.bind_eq_some, M.run_pure, Option.some.injEq, Prod.mk.injEq] at hh
        obtain ⟨⟨l₁, s₁⟩, k₁, hmake, ⟨rfl, rfl⟩, rfl⟩ := hh
        simp only [Iteration.answered, Option.some.injEq, Prod.mk.injEq] at ha
        obtain ⟨_, rfl⟩ := ha
        exact ⟨d, _, _, hmake⟩
      | _ => simp [Iteration.answered] at ha
  cases iterates hnext with
  | panicEarly _ _ => simp [Iteration.answered] at hanswer
  | panicLate _ hb _ =>
    obtain ⟨d, k₅, l'', h⟩ := begun hb hanswer
    exact ⟨d, k₅, _, l'', Nat.le_refl _, h⟩
  | done _ hb hw =>
    obtain ⟨d, k₅, l'', h⟩ := begun hb hanswer
    exact ⟨d, k₅, _, l'', (keeps_work hc hp (Node.Keeps.stepWise hc hp e []) 0 hw).1, h⟩

omit [DecidableEq L] [Custom σ L] [CustomProcessor σ] in
theorem LoopState.AllVisible.earlier {l : LoopState σ L} (mono : e.Mono) {k₂ k₃ : Nat} (hle : k₂ ≤ k₃)
    (hvis : l.AllVisible (e.clock k₃)) : l.AllVisible (e.clock k₂) := by
  intro x hx a ha
  rcases hvis x hx a ha with h | h
  · exact .inl h
  · refine .inr fun d hd => ?_
    have h1 := h d hd
    have h2 := mono _ _ hle
    omega

/-- The same for the answer to a caller who asks for a snapshot. -/
theorem C65_answer (hc : CustomProper σ L) (mono : e.Mono)
    (hnew : NewDriver e k name descr .processAll withMetrics handles t)
    (h : DriverLife e k t (before ++ i :: after) k' (.running l')) (hi : i.message = some (.addProcessor n))
    (hn : n.at way = some (.processor p))
    (hstrategy : ∀ s, DriverMsg.setStrategy s ∈ handled (before ++ i :: after) → s = .processAll)
    (hcomp : p.Completes programs (runsOf (i :: after)).length)
    {place : Place} {path : List (LabelFilter L)} {f : LabelFilter L} {c : Counter}
    (hplace : p.state.leafAt place = some (path, .instrument ⟨f, .counter c, none⟩))
    (hstays : place.Stays programs) (hcount : c.count < 2 ^ 64) {groups : List String} (hgroups : p.state.groupsAt place = some groups)
    {k₂ k₃ : Nat} {t'' : DriverThread σ L} {next : Iteration σ L} {id : Nat} {s : Snapshot}
    (hnext : (DriverThread.running l').iterate e k₂ = (t'', some next, k₃)) (hanswer : next.answered = some (id, s))
    (hvis : l'.state.AllVisible (e.clock k₃)) :
    s.HasAt (name.toList ++ n.mountsTo way ++ groups) c.name
      (.uint ((c.count + ((observationsFor path f programs).map Observation.occurrences).sum) % 2 ^ 64)) := by
  obtain ⟨d, k₄, k₅, l'', hle, hmake⟩ := answer_made hc.forward hc.processorForward hnext hanswer
  exact C65_counter hc mono hnew h hi hn hstrategy hcomp hplace hstays hcount hgroups hmake (hvis.earlier mono hle)

/-! ## Example

Two threads send five messages to the processor of C60, which is in a mount "m" that is added to a driver "d". -/

def deliveredProcessor : Processor Empty Nat := totalProcessor (List.replicate 3003 [0, 1])

def deliveredNode : Node Empty Nat := .mount { name := some "m", lastActivity := 0 } [.processor deliveredProcessor] []

def deliveryPrograms : List (SendThread (DriverMsg Empty Nat)) :=
  [{ todo := [.pause, .resume, .addProcessor deliveredNode] }, { todo := [.getSnapshot 1 false] }]

def deliveryDriver : DriverThread Empty Nat :=
  .running { state := { name := some "d", descr := {}, metrics := none, lastOutcomeLogged := -59300000000, strategy := .processAll }
             receiver := { chan := .fresh none true deliveryPrograms, ahead := [[0], [0], [0], [], [], [1], [], []] } }

example : NewDriver ticking 2 (some "d") {} .processAll false deliveryPrograms deliveryDriver := ⟨1, _, _, _, rfl, rfl⟩

def deliveryLog (n : Nat) : List (Iteration Empty Nat) := (deliveryDriver.iterations n ticking 2).1

example : DriverLife ticking 2 deliveryDriver (deliveryLog 5) (deliveryDriver.iterations 5 ticking 2).2.1
    (deliveryDriver.iterations 5 ticking 2).2.2 := .ofIterations 5 deliveryDriver ticking 2

example : (deliveryLog 5).map (fun i => (addedProcessors i.message.toList).length) = [0, 0, 1, 0, 0] ∧
    (runsOf ((deliveryLog 5).drop 2)).length = 3 ∧ strategiesIn .processAll ((deliveryLog 5).drop 2) = [.processAll, .processAll, .processAll] := by
  decide +kernel

example : deliveredNode.at [0] = some (.processor deliveredProcessor) ∧ deliveredNode.mountsTo [0] = ["m"] := ⟨rfl, rfl⟩

example : deliveredProcessor.Completes totalPrograms 3 where
  fresh := ⟨some 1, true, rfl, .inl rfl, by decide⟩
  connected := rfl
  holding := by decide +kernel
  fair := ⟨by rw [show deliveredProcessor.receiver.ahead = List.replicate 3003 [0, 1] from rfl, List.length_replicate], by
    intro s hs t ht
    rw [List.eq_of_mem_replicate hs]
    have : t < 2 := ht
    have : t = 0 ∨ t = 1 := by omega
    simp [this]⟩
  enough := by decide +kernel

example : deliveredProcessor.state.groupsAt (.handler 0 0) = some [] := rfl

/-- Nothing around the counter ever becomes inactive. -/
example : (match (deliveryDriver.iterations 5 ticking 2).2.2 with
    | .running l => l.state.exhibits.map fun x => (x.path, x.around.map (·.maxInactivity))
    | .ended _ => []) =
    [(["d", "m"], [none, none, none]), (["d", "m"], [none, none, none]), (["d", "m"], [none, none, none])] := by decide +kernel

/-- The number with the given name in a group. -/
def uintAt : List String → String → Snapshot → Option Nat
  | [], n, s => s.findSome? fun x => match x.2 with
    | .uint v => if x.1 = n then some v else none
    | _ => none
  | g :: gs, n, s => s.findSome? fun x => match x.2 with
    | .snapshot sub => if x.1 = g then uintAt gs n sub else none
    | _ => none

/-- The counter started with 1; there are 8 occurrences for it. -/
example : (answersIn (deliveryLog 6)).map (fun a => (a.1, uintAt ["d", "m"] "c" a.2)) = [(1, some 9)] := by decide +kernel

end Metrix
