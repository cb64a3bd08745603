import Verif.Props.C52

/-! # C53: Pause stops processing, nothing else -/

namespace Metrix
variable {σ L : Type}

/-! ## Snapshots take nothing from queues -/

section
variable [Custom σ L] [CustomProcessor σ]

/-- The receivers below some nodes. -/
def receiversOf (ns : List (Node σ L)) : List (Receiver (Message σ L)) := (ns.map Node.receivers).flatten

omit [Custom σ L] [CustomProcessor σ] in
theorem receivers_mount (h : MountHead) (ns : List (Node σ L)) (ss : List (Snapshooter σ L)) :
    (Node.mount h ns ss).receivers = receiversOf ns := by
  simp only [Node.receivers, Node.leaves]
  induction ns with
  | nil => rfl
  | cons n ns ih => simp only [leavesOfNodes, List.filterMap_append, ih]; rfl

omit [Custom σ L] [CustomProcessor σ] in
theorem receivers_attached (h : MountHead) (ns : List (Node σ L)) (ss : List (Snapshooter σ L))
    (inbox : List (Arrivals (Node σ L) (Snapshooter σ L))) : (Node.attached h ns ss inbox).receivers = receiversOf ns := by
  rw [← receivers_mount h ns ss]
  simp only [Node.receivers, Node.leaves]

mutual
theorem putSnapshot_receivers {e : Env} {d : Bool} (n : Node σ L) {n' : Node σ L} {into into' : Snapshot} {k k' : Nat}
    (h : n.putSnapshot d into e k = some ((n', into'), k')) : n'.receivers = n.receivers ∧ n'.inboxes = n.inboxes := by
  match n with
  | .processor p =>
    rw [Node.putSnapshot] at h
    simp only [Processor.putSnapshot, M.bind_eq_some, M.run_pure, Option.some.injEq, Prod.mk.injEq] at h
    obtain ⟨_, _, ⟨_, _, _, rfl, _⟩, ⟨rfl, _⟩, _⟩ := h
    exact ⟨rfl, by simp [Node.inboxes]⟩
  | .mount hd ns ss =>
    rw [Node.putSnapshot] at h
    simp only [M.bind_eq_some] at h
    obtain ⟨⟨go, level⟩, k₁, h1, h2⟩ := h
    cases go with
    | false =>
      simp only [Bool.false_eq_true, if_false, M.run_pure, Option.some.injEq, Prod.mk.injEq] at h2
      obtain ⟨⟨rfl, rfl⟩, rfl⟩ := h2
      exact ⟨rfl, rfl⟩
    | true =>
      simp only [if_true, M.bind_eq_some, M.run_pure, Option.some.injEq, Prod.mk.injEq] at h2
      obtain ⟨⟨ns', l₁⟩, k₂, h3, ⟨ss', l₂⟩, k₃, h4, ⟨rfl, rfl⟩, rfl⟩ := h2
      have := putNodes_receivers ns h3
      simp only [receivers_mount, Node.inboxes]
      exact this
  | .attached hd ns ss inbox =>
    rw [Node.putSnapshot] at h
    simp only [M.bind_eq_some] at h
    obtain ⟨⟨go, level⟩, k₁, h1, h2⟩ := h
    cases go with
    | false =>
      simp only [Bool.false_eq_true, if_false, M.run_pure, Option.some.injEq, Prod.mk.injEq] at h2
      obtain ⟨⟨rfl, rfl⟩, rfl⟩ := h2
      exact ⟨rfl, rfl⟩
    | true =>
      simp only [if_true, M.bind_eq_some, M.run_pure, Option.some.injEq, Prod.mk.injEq] at h2
      obtain ⟨⟨ns', l₁⟩, k₂, h3, ⟨ss', l₂⟩, k₃, h4, ⟨rfl, rfl⟩, rfl⟩ := h2
      have := putNodes_receivers ns h3
      simp only [receivers_attached, Node.inboxes, List.cons.injEq, true_and]
      exact this
  | .driver as =>
    rw [Node.putSnapshot] at h
    simp only [M.run_pure, Option.some.injEq, Prod.mk.injEq] at h
    obtain ⟨⟨rfl, _⟩, _⟩ := h
    exact ⟨rfl, by simp [Node.inboxes]⟩
  | .custom s =>
    rw [Node.putSnapshot] at h
    simp only [M.bind_eq_some, M.run_pure, Option.some.injEq, Prod.mk.injEq] at h
    obtain ⟨_, _, _, ⟨rfl, _⟩, _⟩ := h
    exact ⟨rfl, by simp [Node.inboxes]⟩

theorem putNodes_receivers {e : Env} {d : Bool} (ns : List (Node σ L)) {ns' : List (Node σ L)} {into into' : Snapshot}
    {k k' : Nat} (h : putNodes d ns into e k = some ((ns', into'), k')) :
    receiversOf ns' = receiversOf ns ∧ inboxesOfNodes ns' = inboxesOfNodes ns := by
  match ns with
  | [] =>
    simp only [putNodes, M.run_pure, Option.some.injEq, Prod.mk.injEq] at h
    obtain ⟨⟨rfl, rfl⟩, rfl⟩ := h; exact ⟨rfl, rfl⟩
  | n :: ns =>
    simp only [putNodes, M.bind_eq_some, M.run_pure, Option.some.injEq, Prod.mk.injEq] at h
    obtain ⟨⟨s₁, i₁⟩, k₁, h1, ⟨ss₁, i₂⟩, k₂, h2, ⟨rfl, rfl⟩, rfl⟩ := h
    obtain ⟨a, b⟩ := putSnapshot_receivers n h1
    obtain ⟨a', b'⟩ := putNodes_receivers ns h2
    simp only [receiversOf, List.map_cons, List.flatten_cons, inboxesOfNodes] at a' ⊢
    exact ⟨by rw [a, a'], by rw [b, b']⟩
end

theorem Node.Shown.kept {e : Env} {n n' : Node σ L} (h : n.Shown e n') :
    n'.receivers = n.receivers ∧ n'.inboxes = n.inboxes := by
  induction h with
  | refl => exact ⟨rfl, rfl⟩
  | snapshot _ hp ih =>
    obtain ⟨a, b⟩ := putSnapshot_receivers _ hp
    exact ⟨a.trans ih.1, b.trans ih.2⟩

theorem Node.Shown.trans {e : Env} {a b c : Node σ L} (h : a.Shown e b) (h' : b.Shown e c) : a.Shown e c := by
  induction h' with
  | refl => exact h
  | snapshot _ hp ih => exact .snapshot ih hp

end

variable [DecidableEq L] [Custom σ L] [CustomProcessor σ]

variable {e : Env} {k k₁ k' : Nat} {name : Option String} {descr : Descr} {strategy : Strategy} {withMetrics : Bool}
  {programs : List (SendThread (DriverMsg σ L))} {t t' : DriverThread σ L} {log : List (Iteration σ L)}

/-- The state after some iterations. -/
theorem DriverLife.fromMessages (h : DriverLife e k t log k' t') {ms : List (DriverMsg σ L)}
    (ht : ∀ l, t = .running l → FromMessages e name descr strategy withMetrics ms l.state) :
    ∀ l, t' = .running l → FromMessages e name descr strategy withMetrics (ms ++ handled log) l.state := by
  induction h generalizing ms with
  | nil => simpa [handled] using ht
  | @iteration k k₁ k₂ k' t t₁ t' i log _ hi hl ih =>
    rw [handled_cons, ← List.append_assoc]
    refine ih ?_
    cases t with
    | ended c => have := (iterate_ended hi).2.1; simp at this
    | running l =>
      intro l' hl'
      cases iterates hi with
      | panicEarly hp hb => cases hl'
      | panicLate hp hb hw => cases hl'
      | done hp hb hw => cases hl'; exact work_fromMessages (begin_fromMessages (ht l rfl) hb) hw
  | @over k k₁ k₂ k' t t₁ t' log _ hi hl ih =>
    refine ih ?_
    cases t with
    | ended c => obtain ⟨rfl, -, -⟩ := iterate_ended hi; intro l hl; cases hl
    | running l => cases iterates hi with | stop hp => intro l hl; cases hl
  | others hl ih => exact ih (fun l hl => by cases hl)

/-- An iteration that did not panic ran the processors if and only if the driver is not paused after the message
of this iteration: if there was no `pause` yet, or a `resume` after the last `pause`. -/
theorem C53_runs (hnew : NewDriver e k name descr strategy withMetrics programs t) (h : DriverLife e k t log k' t')
    (hrun : t'.Runs) {before after : List (Iteration σ L)} {i : Iteration σ L} (hlog : log = before ++ i :: after) :
    i.outcome.isSome = true ↔ pausedAfter (handled (before ++ [i])) = false := by
  obtain ⟨l₀, rfl, hchan, h0⟩ := hnew.fromMessages
  obtain ⟨l, k₁, k₂, t₁, hi, hl, hrest⟩ := h.at (ms := []) (fun l hl => by cases hl; exact h0) hlog
  have hh : handled (before ++ [i]) = [] ++ handled before ++ i.message.toList := by
    cases hm : i.message <;> simp [handled, hm]
  rw [hh]
  have notEnded : ∀ c, t₁ ≠ .ended c := by
    intro c hc
    obtain ⟨_, s, h2⟩ := hrest.ended hc
    obtain ⟨l', hl'⟩ := hrun
    rw [h2] at hl'; cases hl'
  cases iterates hi with
  | panicEarly hp hb => exact absurd rfl (notEnded _)
  | panicLate hp hb hw => exact absurd rfl (notEnded _)
  | done hp hb hw =>
    have := (begin_fromMessages hl hb).paused
    rw [← this]
    rcases work_state hw with ⟨h1, rfl, _⟩ | ⟨h1, o, _, rfl, _⟩
    · simp [h1]
    · simp [h1]

/-- What a run does. All the processors added so far, including one added in this very iteration, are processed once, in
the order of their addition, with the strategy that was set last, and the outcome is the sum of their outcomes. -/
theorem C53_run (hnew : NewDriver e k name descr strategy withMetrics programs t) (h : DriverLife e k t log k' t')
    {before after : List (Iteration σ L)} {i : Iteration σ L} (hlog : log = before ++ i :: after) {o : Outcome}
    (ho : i.outcome = some o) :
    ∃ ps ps' os k₁ k₂, List.Forall₂ (Node.Became e) (addedProcessors (handled (before ++ [i]))) ps ∧
      InTurn e 1000 (strategyAfter strategy (handled (before ++ [i]))) k₁ ps ps' os k₂ ∧ o.IsSum os := by
  obtain ⟨l₀, rfl, hchan, h0⟩ := hnew.fromMessages
  obtain ⟨l, k₁, k₂, t₁, hi, hl, hrest⟩ := h.at (ms := []) (fun l hl => by cases hl; exact h0) hlog
  have hh : handled (before ++ [i]) = [] ++ handled before ++ i.message.toList := by
    cases hm : i.message <;> simp [handled, hm]
  rw [hh]
  cases iterates hi with
  | panicEarly hp hb => cases ho
  | panicLate hp hb hw => cases ho
  | done hp hb hw =>
    have hb' := begin_fromMessages hl hb
    rcases work_state hw with ⟨h1, rfl, _⟩ | ⟨h1, o', k₃, ho', h2, _⟩
    · cases ho
    · cases ho'.symm.trans ho
      obtain ⟨os, h3, h4⟩ := processNodes_inTurn h2
      rw [hb'.strategy] at h3
      exact ⟨_, _, os, _, _, hb'.processors, h3, h4⟩

theorem handle_shown {l l' : LoopState σ L} {m : DriverMsg σ L} {answer : Option Snapshot}
    (h : l.handle m e k = some ((l', answer), k')) :
    List.Forall₂ (Node.Shown e) (l.processors ++ addedProcessors [m]) l'.processors ∧
    List.Forall₂ (Snapshooter.Became e) (l.snapshooters ++ addedSnapshooters [m]) l'.snapshooters := by
  have hr := fun ns : List (Node σ L) => forall₂_refl (R := Node.Shown e) (fun _ => .refl) ns
  have hr' := fun ns : List (Snapshooter σ L) => forall₂_refl (R := Snapshooter.Became e) (fun _ => .refl) ns
  cases m with
  | getSnapshot id d =>
    simp only [LoopState.handle, M.bind_eq_some, M.run_pure, Option.some.injEq, Prod.mk.injEq] at h
    obtain ⟨⟨l₁, s⟩, k₁, h, ⟨rfl, rfl⟩, rfl⟩ := h
    obtain ⟨level, hv, rfl⟩ := makeSnapshot_spec h
    obtain ⟨ps, ss, items₁, items₂, k₁, k₂, metrics, entry, hp, hs, -, -, hm, rfl, -⟩ := addSnapshotValues_spec hv
    simp only [addedProcessors, addedSnapshooters, List.filterMap_cons, List.filterMap_nil, List.append_nil]
    exact ⟨hp.each.imp fun _ _ ⟨_, _, _, _, h⟩ => .snapshot .refl h, hs.becameS⟩
  | addProcessor n =>
    simp only [LoopState.handle, M.run_pure, Option.some.injEq, Prod.mk.injEq] at h
    obtain ⟨⟨rfl, rfl⟩, rfl⟩ := h
    simp only [addedProcessors, addedSnapshooters, List.filterMap_cons, List.filterMap_nil, List.append_nil]
    exact ⟨hr _, hr' _⟩
  | addSnapshooter n =>
    simp only [LoopState.handle, M.run_pure, Option.some.injEq, Prod.mk.injEq] at h
    obtain ⟨⟨rfl, rfl⟩, rfl⟩ := h
    simp only [addedProcessors, addedSnapshooters, List.filterMap_cons, List.filterMap_nil, List.append_nil]
    exact ⟨hr _, hr' _⟩
  | setStrategy s =>
    simp only [LoopState.handle, M.run_pure, Option.some.injEq, Prod.mk.injEq] at h
    obtain ⟨⟨rfl, rfl⟩, rfl⟩ := h
    simp only [addedProcessors, addedSnapshooters, List.filterMap_cons, List.filterMap_nil, List.append_nil]
    exact ⟨hr _, hr' _⟩
  | pause =>
    simp only [LoopState.handle, M.run_pure, Option.some.injEq, Prod.mk.injEq] at h
    obtain ⟨⟨rfl, rfl⟩, rfl⟩ := h
    simp only [addedProcessors, addedSnapshooters, List.filterMap_cons, List.filterMap_nil, List.append_nil]
    exact ⟨hr _, hr' _⟩
  | resume =>
    simp only [LoopState.handle, M.run_pure, Option.some.injEq, Prod.mk.injEq] at h
    obtain ⟨⟨rfl, rfl⟩, rfl⟩ := h
    simp only [addedProcessors, addedSnapshooters, List.filterMap_cons, List.filterMap_nil, List.append_nil]
    exact ⟨hr _, hr' _⟩

theorem begin_shown {l l' : LoopState σ L} {m : Option (DriverMsg σ L)} {started : Int} {answer : Option Snapshot}
    (h : l.begin m e k = some ((l', started, answer), k')) :
    List.Forall₂ (Node.Shown e) (l.processors ++ addedProcessors m.toList) l'.processors ∧
    List.Forall₂ (Snapshooter.Became e) (l.snapshooters ++ addedSnapshooters m.toList) l'.snapshooters := by
  rcases (begin_spec h).2 with ⟨rfl, rfl, rfl, _⟩ | ⟨m', rfl, hh⟩
  · simp only [Option.toList_none, addedProcessors, addedSnapshooters, List.filterMap_nil, List.append_nil]
    exact ⟨forall₂_refl (R := Node.Shown e) (fun _ => .refl) _, forall₂_refl (R := Snapshooter.Became e) (fun _ => .refl) _⟩
  · exact handle_shown hh

omit [DecidableEq L] in
theorem shown_trans {a b c : List (Node σ L)} (h : List.Forall₂ (Node.Shown e) a b)
    (h' : List.Forall₂ (Node.Shown e) b c) : List.Forall₂ (Node.Shown e) a c :=
  forall₂_comp (R := Node.Shown e) (S := Node.Shown e) (fun _ _ _ => Node.Shown.trans) h h'

omit [DecidableEq L] [Custom σ L] [CustomProcessor σ] in
theorem pausedAfter_append (ms ms' : List (DriverMsg σ L)) (h : pausedAfter ms = true) (hno : ∀ m ∈ ms', m ≠ .resume) :
    pausedAfter (ms ++ ms') = true := by
  unfold pausedAfter at h ⊢
  rw [List.filterMap_append, List.getLast?_append]
  generalize hx : (ms'.filterMap _).getLast? = x
  cases x with
  | none => exact h
  | some b =>
    have hmem := List.mem_of_getLast? hx
    obtain ⟨m, hm, hb⟩ := List.mem_filterMap.mp hmem
    cases m with
    | resume => exact absurd rfl (hno _ hm)
    | pause => simp at hb; simp [← hb]
    | _ => simp at hb

/-- While the driver is paused, no processor is run. All that happens to the processors that were there, and to those that are
added meanwhile, are snapshots. Nothing is taken from the queues of processors or attached mounts: the receivers and
what is going to arrive are the same as before. -/
theorem C53_paused (hnew : NewDriver e k name descr strategy withMetrics programs t) {before : List (Iteration σ L)}
    {l l' : Loop σ L} (hbefore : DriverLife e k t before k₁ (.running l))
    (h : DriverLife e k₁ (.running l) log k' (.running l'))
    (hp : pausedAfter (handled before) = true) (hno : ∀ m ∈ handled log, m ≠ .resume) :
    (∀ i ∈ log, i.outcome = none) ∧
    List.Forall₂ (Node.Shown e) (l.state.processors ++ addedProcessors (handled log)) l'.state.processors ∧
    List.Forall₂ (Snapshooter.Became e) (l.state.snapshooters ++ addedSnapshooters (handled log)) l'.state.snapshooters ∧
    receiversOf l'.state.processors = receiversOf (l.state.processors ++ addedProcessors (handled log)) ∧
    inboxesOfNodes l'.state.processors = inboxesOfNodes (l.state.processors ++ addedProcessors (handled log)) := by
  have key : ∀ {k₁ k' t t' log} {l l' : Loop σ L} {ms : List (DriverMsg σ L)}, DriverLife e k₁ t log k' t' →
      t = .running l → t' = .running l' → FromMessages e name descr strategy withMetrics ms l.state →
      pausedAfter ms = true → (∀ m ∈ handled log, m ≠ .resume) →
      (∀ i ∈ log, i.outcome = none) ∧
      List.Forall₂ (Node.Shown e) (l.state.processors ++ addedProcessors (handled log)) l'.state.processors ∧
      List.Forall₂ (Snapshooter.Became e) (l.state.snapshooters ++ addedSnapshooters (handled log)) l'.state.snapshooters := by
    intro k₁ k' t t' log l l' ms h
    induction h generalizing l ms with
    | nil =>
      rintro rfl hl' - - -
      cases hl'
      refine ⟨by simp, ?_, ?_⟩
      · simpa [handled, addedProcessors] using forall₂_refl (R := Node.Shown e) (fun _ => .refl) _
      · simpa [handled, addedSnapshooters] using forall₂_refl (R := Snapshooter.Became e) (fun _ => .refl) _
    | @iteration k k₁ k₂ k' t t₁ t' i log _ hi hl ih =>
      rintro rfl rfl hfm hp hno
      have notEnded : ∀ c, t₁ ≠ .ended c := by
        intro c hc
        obtain ⟨_, s, h2⟩ := hl.ended hc
        cases h2
      cases iterates hi with
      | panicEarly hp hb => exact absurd rfl (notEnded _)
      | panicLate hp hb hw => exact absurd rfl (notEnded _)
      | done hpl hb hw =>
        rename_i r m s started answer k₁ s' outcome rest
        rw [handled_cons] at hno ⊢
        have hb' := begin_fromMessages hfm hb
        have hp' : pausedAfter (ms ++ m.toList) = true :=
          pausedAfter_append _ _ hp fun x hx => hno x (List.mem_append_left _ hx)
        rcases work_state hw with ⟨h1, rfl, rfl⟩ | ⟨h1, _⟩
        · obtain ⟨g1, g2, g3⟩ := ih rfl rfl hb' hp' fun x hx => hno x (List.mem_append_right _ hx)
          obtain ⟨a, b⟩ := begin_shown hb
          refine ⟨?_, ?_, ?_⟩
          · intro i hi
            rcases List.mem_cons.mp hi with rfl | hi
            · rfl
            · exact g1 i hi
          · refine shown_trans ?_ g2
            simp only [addedProcessors, List.filterMap_append, ← List.append_assoc] at a ⊢
            exact List.rel_append a (forall₂_refl (fun _ => .refl) _)
          · refine becameS_trans ?_ g3
            simp only [addedSnapshooters, List.filterMap_append, ← List.append_assoc] at b ⊢
            exact List.rel_append b (forall₂_refl (fun _ => .refl) _)
        · rw [hb'.paused, hp'] at h1; cases h1
    | @over k k₁ k₂ k' t t₁ t' log _ hi hl ih =>
      rintro rfl rfl
      cases iterates hi with
      | stop hp =>
        obtain ⟨_, s, h2⟩ := hl.ended rfl
        cases h2
    | others hl ih => rintro hl; cases hl
  obtain ⟨l₀, rfl, hchan, h0⟩ := hnew.fromMessages
  have hfm := hbefore.fromMessages (ms := []) (fun l hl => by cases hl; exact h0) l rfl
  obtain ⟨g1, g2, g3⟩ := key h rfl rfl hfm (by simpa using hp) hno
  refine ⟨g1, g2, g3, ?_⟩
  clear g1 g3 hno h hfm
  generalize l.state.processors ++ addedProcessors (handled log) = a at g2
  generalize l'.state.processors = b at g2
  induction g2 with
  | nil => exact ⟨rfl, rfl⟩
  | cons hab _ ih =>
    obtain ⟨x, y⟩ := hab.kept
    simp only [receiversOf, List.map_cons, List.flatten_cons, inboxesOfNodes] at ih ⊢
    exact ⟨by rw [x, ih.1], by rw [y, ih.2]⟩

/-- While the driver is paused everything else goes on: each request that is handled is answered, in order and once, and the
strategy is the one that was set last, before the pause or in it. Setting a strategy does not end the pause. -/
theorem C53_paused_handles (hnew : NewDriver e k name descr strategy withMetrics programs t) {before : List (Iteration σ L)}
    {l l' : Loop σ L} (hbefore : DriverLife e k t before k₁ (.running l))
    (h : DriverLife e k₁ (.running l) log k' (.running l'))
    (hp : pausedAfter (handled before) = true) (hno : ∀ m ∈ handled log, m ≠ .resume) :
    (answersIn log).map (·.1) = requests (handled log) ∧
    l'.state.strategy = strategyAfter strategy (handled before ++ handled log) ∧ l'.state.paused = true := by
  obtain ⟨l₀, rfl, hchan, h0⟩ := hnew.fromMessages
  have hfm := hbefore.fromMessages (ms := []) (fun l hl => by cases hl; exact h0) l rfl
  have hfm' := h.fromMessages (fun l hl => by cases hl; exact hfm) l' rfl
  refine ⟨(C52_answered h).2.2 ⟨_, rfl⟩, by simpa using hfm'.strategy, ?_⟩
  rw [hfm'.paused]
  exact pausedAfter_append _ _ (by simpa using hp) hno

theorem Node.Used.run_after {n n₁ n₂ : Node σ L} {m max : Nat} {s : Strategy} {o : Outcome} (h : Node.Used e n m n₁)
    (hp : n₁.process max s e k = some ((n₂, o), k')) : Node.Used e n (m + 1) n₂ := by
  induction h with
  | nil => exact .run hp .nil
  | run hq _ ih => exact .run hq (ih hp)
  | snapshot hq _ ih => exact .snapshot hq (ih hp)

theorem Node.Used.shown {n n₁ n₂ : Node σ L} {m : Nat} (h : n.Shown e n₁) (h' : Node.Used e n₁ m n₂) : Node.Used e n m n₂ := by
  induction h with
  | refl => exact h'
  | snapshot _ hp ih => exact ih (.snapshot hp h')

/-- The processors of a driver are those added by messages, in that order. Each of them was run exactly once in each run of
the driver since it was added, and never otherwise; apart from that there were only snapshots of it. -/
theorem C53_every_run (hnew : NewDriver e k name descr strategy withMetrics programs t) {l' : Loop σ L}
    (h : DriverLife e k t log k' (.running l')) :
    List.Forall₂ (fun added n' => Node.Used e added.1 added.2 n') (addedWithRuns log) l'.state.processors := by
  have key : ∀ {k₁ k' t t' log} {l l' : Loop σ L}, DriverLife e k₁ t log k' t' → t = .running l → t' = .running l' →
      List.Forall₂ (fun added n' => Node.Used e added.1 added.2 n')
        (l.state.processors.map (fun n => (n, (runsOf log).length)) ++ addedWithRuns log) l'.state.processors := by
    intro k₁ k' t t' log l l' h
    induction h generalizing l with
    | nil =>
      rintro rfl hl'
      cases hl'
      simp only [addedWithRuns, List.append_nil, runsOf, List.filterMap_nil, List.length_nil]
      rw [List.forall₂_map_left_iff]
      exact forall₂_refl (fun _ => .nil) _
    | @iteration k k₁ k₂ k' t t₁ t' i log _ hi hl ih =>
      rintro rfl rfl
      have notEnded : ∀ c, t₁ ≠ .ended c := by
        intro c hc
        obtain ⟨_, s, h2⟩ := hl.ended hc
        cases h2
      cases iterates hi with
      | panicEarly hp hb => exact absurd rfl (notEnded _)
      | panicLate hp hb hw => exact absurd rfl (notEnded _)
      | done hpl hb hw =>
        rename_i r m s started answer k₁ s' outcome rest
        have ih := ih rfl rfl
        have hsh := (begin_shown hb).1
        -- from the beginning of the iteration to its end
        have hstep : List.Forall₂ (fun n n' => ∀ j n₂, Node.Used e n' j n₂ →
            Node.Used e n (j + outcome.toList.length) n₂) (l.state.processors ++ addedProcessors m.toList) s'.processors := by
          rcases work_state hw with ⟨h1, rfl, rfl⟩ | ⟨h1, o, k₄, rfl, h2, _⟩
          · exact hsh.imp fun n n' hn j n₂ hu => hu.shown hn
          · obtain ⟨os, h3, h4⟩ := processNodes_inTurn h2
            clear h4
            have hrun : List.Forall₂ (fun n n' => ∀ j n₂, Node.Used e n' j n₂ → Node.Used e n (j + 1) n₂)
                s.processors s'.processors := by
              clear hsh ih h2 hw hb hi
              generalize s.processors = a at h3
              generalize s'.processors = b at h3
              generalize k₁ + 1 = j₀ at h3
              induction h3 with
              | nil => exact .nil
              | cons _ hp _ ih => exact .cons (fun j n₂ hu => .run hp hu) ih
            exact forall₂_comp (R := Node.Shown e) (S := fun n n' => ∀ j n₂, Node.Used e n' j n₂ → Node.Used e n (j + 1) n₂)
              (fun a b c hab hbc j n₂ hu => .shown hab (hbc j n₂ hu)) hsh hrun
        have hlen : (runsOf ({ message := m, answer, outcome, rest } :: log)).length =
            (runsOf log).length + outcome.toList.length := by
          cases outcome <;> simp [runsOf]
        simp only [addedWithRuns]
        rw [← List.append_assoc, ← List.map_append, hlen]
        -- split the processors at the end
        generalize l.state.processors ++ addedProcessors m.toList = a at hstep
        obtain ⟨x, y, hx, hy, hxy⟩ : ∃ x y, List.Forall₂ (fun added n' => Node.Used e added.1 added.2 n')
            (s'.processors.map (fun n => (n, (runsOf log).length))) x ∧
            List.Forall₂ (fun added n' => Node.Used e added.1 added.2 n') (addedWithRuns log) y ∧
            l'.state.processors = x ++ y := by
          refine ⟨l'.state.processors.take (s'.processors.map (fun n => (n, (runsOf log).length))).length,
            l'.state.processors.drop (s'.processors.map (fun n => (n, (runsOf log).length))).length, ?_, ?_, ?_⟩
          · have := List.forall₂_take_append (l'.state.processors) _ _ (ih.flip)
            exact this.flip
          · have := List.forall₂_drop_append (l'.state.processors) _ _ (ih.flip)
            exact this.flip
          · rw [List.take_append_drop]
        rw [hxy]
        refine List.rel_append ?_ hy
        rw [List.forall₂_map_left_iff] at hx ⊢
        exact forall₂_comp (R := fun n n' => ∀ j n₂, Node.Used e n' j n₂ → Node.Used e n (j + outcome.toList.length) n₂)
          (S := fun n n' => Node.Used e n (runsOf log).length n')
          (fun _ _ _ h1 h2 => h1 _ _ h2) hstep hx
    | @over k k₁ k₂ k' t t₁ t' log _ hi hl ih =>
      rintro rfl rfl
      cases iterates hi with
      | stop hp =>
        obtain ⟨_, s, h2⟩ := hl.ended rfl
        cases h2
    | others hl ih => rintro hl; cases hl
  obtain ⟨l₀, rfl, hchan, h0⟩ := hnew.fromMessages
  have := key h rfl rfl
  have hnil : l₀.state.processors = [] := by
    have := h0.processors
    simp only [addedProcessors, List.filterMap_nil] at this
    cases hh : l₀.state.processors with
    | nil => rfl
    | cons a b => rw [hh] at this; cases this
  rw [hnil] at this
  simpa using this

/-! ## Example: pause, a processor is added, a snapshot, resume -/

def pausePrograms : List (SendThread (DriverMsg Empty Nat)) :=
  [{ todo := [.pause, .addProcessor (.processor exampleProcessor), .getSnapshot 1 false, .setStrategy .dropAll, .resume],
     drops := false }]

def pauseDriver : DriverThread Empty Nat :=
  .running { state := { name := some "d", metrics := none, lastOutcomeLogged := -59300000000, strategy := .processAll }
             receiver := { chan := .fresh none true pausePrograms, ahead := [[0], [], [0], [], [0], [], [0], [], [0], [], []] } }

example : NewDriver ticking 2 (some "d") {} .processAll false pausePrograms pauseDriver := ⟨1, _, _, _, rfl, rfl⟩

/-- In each iteration: whether there was a message, and how much was processed and dropped if there was a run. -/
example : (pauseDriver.iterations 6 ticking 2).1.map (fun i => (i.message.isSome, i.outcome.map fun o => (o.processed, o.dropped))) =
    [(true, none), (true, none), (true, none), (true, none), (true, some (0, 4)), (false, some (0, 0))] := by decide +kernel

example : (answersIn (pauseDriver.iterations 6 ticking 2).1).map (·.1) = [1] := by decide +kernel

theorem pauseDriver_new : NewDriver ticking 2 (some "d") {} .processAll false pausePrograms pauseDriver := ⟨1, _, _, _, rfl, rfl⟩

/-- It still runs after these iterations. -/
theorem pauseDriver_runs : (pauseDriver.iterations 6 ticking 2).2.2.Runs := by
  cases h : (pauseDriver.iterations 6 ticking 2).2.2 with
  | running l => exact ⟨l, rfl⟩
  | ended c =>
    have : (match (pauseDriver.iterations 6 ticking 2).2.2 with | .running _ => true | .ended _ => false) = true := by decide +kernel
    rw [h] at this; cases this

example : True := by
  obtain ⟨l, hl⟩ := pauseDriver_runs
  have h := DriverLife.ofIterations 6 pauseDriver ticking 2
  rw [hl] at h
  have := C53_every_run pauseDriver_new h
  have h1 : (pauseDriver.iterations 6 ticking 2).1.map (fun i => i.message.isSome) = [true, true, true, true, true, false] := by
    decide +kernel
  rcases hlog : (pauseDriver.iterations 6 ticking 2).1 with _ | ⟨i, after⟩
  · rw [hlog] at h1; cases h1
  · have := C53_runs pauseDriver_new h ⟨l, rfl⟩ (before := []) hlog
    trivial

end Metrix
