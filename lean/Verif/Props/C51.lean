import Verif.Props.C50

/-! # C51: Attached mounts deliver everything attached -/

namespace Metrix
variable {σ L : Type}

theorem HandleChannel.took {programs : List (SendThread (Attach σ L))} {c c' : Channel (Attach σ L)}
    {ms : List (Attach σ L)} (h : HandleChannel programs c) (ht : Took c c' ms) : HandleChannel programs c' := by
  obtain ⟨as, hno, rfl⟩ := h
  obtain ⟨⟨as', hno', rfl⟩, -⟩ := ht
  refine ⟨as ++ as', fun a ha => ?_, by rw [Channel.acts_append]⟩
  rcases List.mem_append.mp ha with ha | ha
  · exact hno a ha
  · exact hno' a ha

theorem noDrop_alive {μ : Type} {c : Channel μ} {as : List Action} (hno : NoDrop as) (hc : c.receiver = true) :
    (c.acts as).receiver = true := by
  induction as generalizing c with
  | nil => exact hc
  | cons a as ih =>
    refine ih (fun a ha => hno a (List.mem_cons_of_mem _ ha)) ?_
    cases a with
    | thread t => simp only [Channel.act]; rw [Channel.step_receiver]; exact hc
    | receive => simp only [Channel.act, Channel.take]; split <;> exact hc
    | dropReceiver => exact absurd rfl (hno _ (by simp))

/-- No call on a handle is ever lost, and what the mount received from a handle, followed by what is in the queue, is
what was done with that handle so far, in that order: a beginning of its program. -/
theorem C51_handles {programs : List (SendThread (Attach σ L))} {c : Channel (Attach σ L)}
    (h : HandleChannel programs c) (t : Nat) :
    byThread t c.taken ++ byThread t c.queue = c.sentBy t ∧ c.sentBy t ++ c.todo t = programOf programs t := by
  obtain ⟨as, hno, rfl⟩ := h
  have halive := noDrop_alive (c := Channel.fresh none true programs) hno rfl
  have hkept := Channel.acts_induction_alive (fun c a => Channel.kept_act c a) (Channel.fresh none true programs) as halive rfl
  have hless := C12_lossless none true programs as (.inl rfl) halive
  constructor
  · rw [← Channel.byThread_append, hkept, Channel.accepted_eq_sentBy _ hless]
  · rw [Channel.program_acts]
    simp [Channel.fresh, Channel.sentBy, Channel.todo, programOf]
    cases programs[t]? <;> rfl

/-- When all handles are dropped everything they were used for was sent. -/
theorem C51_dropped {programs : List (SendThread (Attach σ L))} {c : Channel (Attach σ L)}
    (h : HandleChannel programs c) (hp : ∀ th ∈ programs, th.holds = true) (ha : c.abandoned = true) (t : Nat) :
    c.sentBy t = programOf programs t := by
  have ho : c.Orderly := by
    obtain ⟨as, -, rfl⟩ := h
    refine Channel.acts_induction (fun c a => Channel.orderly_act c a) _ as ?_
    intro th hth hh
    rw [hp th hth] at hh; cases hh
  have := (C51_handles h t).2
  have htodo : c.todo t = [] := by
    unfold Channel.todo
    cases hth : c.threads[t]? with
    | none => rfl
    | some th =>
      refine ho th (List.mem_of_getElem? hth) ?_
      have := List.all_eq_true.mp ha th (List.mem_of_getElem? hth)
      simpa using this
  rw [htodo, List.append_nil] at this
  exact this

variable [DecidableEq L] [Custom σ L] [CustomProcessor σ]

/-- One run of an attached mount with any content, while the handles are used by any number of threads by any schedule.
`ms` is received. Then the queue is empty: everything attached until then was received, in order, also if the handles
were dropped meanwhile. What was received is part of the mount, behind what was there before, and the processors
received are processed in this run, as the last ones. -/
theorem C51_run {e : Env} {max : Nat} {strategy : Strategy} {h : MountHead} {ns : List (Node σ L)}
    {ss : List (Snapshooter σ L)} {r : Receiver (Attach σ L)} {n : Nat} {n' : Node σ L} {o : Outcome} {k k' : Nat}
    (hp : (Node.attached h ns ss (r.inbox (n + 1))).process max strategy e k = some ((n', o), k')) :
    ∃ r' ms closed, r.drain = (r', ms, closed) ∧ Took r.chan r'.chan ms ∧ r'.chan.queue = [] ∧
      r'.chan.abandoned = closed ∧
      ∃ h' ns' os k₁, InTurn e max strategy k (ns ++ Attach.processors ms) ns' os k₁ ∧ k₁ ≤ k' ∧ o.IsSum os ∧
        n' = .attached h' ns' (ss ++ Attach.snapshooters ms) (if closed then [] else r'.inbox n) := by
  rcases hd : r.drain with ⟨r', ms, closed⟩
  obtain ⟨h1, h2, h3⟩ := r.drain_ends hd
  refine ⟨r', ms, closed, rfl, h1, h2, h3, ?_⟩
  obtain ⟨ns', os, k₁, h4, h5, h6, h7⟩ := process_attached hp
  simp only [Receiver.inbox, hd, firstArrivals, laterArrivals] at h4 h7
  cases closed with
  | false => exact ⟨_, ns', os, k₁, h4, h5, h6, h7⟩
  | true => exact ⟨_, ns', os, k₁, h4, h5, h6, h7⟩

omit [DecidableEq L] [Custom σ L] [CustomProcessor σ] in
theorem drain_abandoned {r : Receiver (Attach σ L)} (ha : r.chan.abandoned = true) (hq : r.chan.queue = []) :
    r.drain.1.chan = r.chan ∧ r.drain.2 = ([], true) := by
  have hw : r.wait.chan = r.chan := by
    unfold Receiver.wait
    split
    · rfl
    · exact Channel.abandoned_run _ _ ha
  have ht : r.tryRecv = (r.wait, .disconnected) := by
    unfold Receiver.tryRecv
    simp only
    rw [hw, hq, ha]; rfl
  unfold Receiver.drain
  rw [Receiver.drainWithin, ht]
  exact ⟨hw, rfl⟩

omit [DecidableEq L] [Custom σ L] [CustomProcessor σ] in
theorem attach_append (a b : List (Attach σ L)) :
    Attach.processors (a ++ b) = Attach.processors a ++ Attach.processors b ∧
      Attach.snapshooters (a ++ b) = Attach.snapshooters a ++ Attach.snapshooters b := by
  induction a with
  | nil => exact ⟨rfl, rfl⟩
  | cons x a ih => cases x <;> simp [Attach.processors, Attach.snapshooters, ih.1, ih.2]

omit [DecidableEq L] [Custom σ L] [CustomProcessor σ] in
theorem drains_took (m : Nat) (r : Receiver (Attach σ L)) : ∃ ms, Took r.chan (r.drains m).chan ms ∧
    (0 < m → (r.drains m).chan.queue = []) := by
  induction m generalizing r with
  | zero => exact ⟨[], .refl _, fun h => by omega⟩
  | succ m ih =>
    rcases hd : r.drain with ⟨r', ms, closed⟩
    obtain ⟨h1, h2, h3⟩ := r.drain_ends hd
    obtain ⟨ms', h4, h5⟩ := ih r'
    refine ⟨ms ++ ms', ?_, fun _ => ?_⟩
    · simp only [Receiver.drains, hd]; exact h1.trans h4
    · simp only [Receiver.drains, hd]
      rcases Nat.eq_zero_or_pos m with rfl | hm
      · exact h2
      · exact h5 hm

theorem used_attached {e : Env} {m : Nat} {x x' : Node σ L} (hu : Node.Used e x m x') {h : MountHead}
    {ns : List (Node σ L)} {ss : List (Snapshooter σ L)} {inbox : List (Arrivals (Node σ L) (Snapshooter σ L))}
    {r : Receiver (Attach σ L)} {n : Nat} (hx : x = .attached h ns ss inbox) (hm : m ≤ n)
    (hr : inbox = r.inbox n ∨ (inbox = [] ∧ r.chan.abandoned = true ∧ r.chan.queue = [])) :
    ∃ h' ns' ss' inbox' l, x' = .attached h' ns' ss' inbox' ∧ (r.drains m).chan.taken = r.chan.taken ++ l ∧
      List.Forall₂ (Node.Became e) (ns ++ Attach.processors (l.map (·.2))) ns' ∧
      List.Forall₂ (Snapshooter.Became e) (ss ++ Attach.snapshooters (l.map (·.2))) ss' := by
  induction hu generalizing h ns ss inbox r n with
  | nil =>
    subst hx
    exact ⟨h, ns, ss, inbox, [], rfl, by simp [Receiver.drains], by
      simpa [Attach.processors] using forall₂_refl (fun _ => .refl) _, by
      simpa [Attach.snapshooters] using forall₂_refl (fun _ => .refl) _⟩
  | snapshot hp _ ih =>
    subst hx
    obtain ⟨ns₁, ss₁, rfl, hn, hs⟩ := put_attached hp
    obtain ⟨h', ns', ss', inbox', l, h1, h2, h3, h4⟩ := ih rfl hm hr
    refine ⟨h', ns', ss', inbox', l, h1, h2, ?_, ?_⟩
    · exact forall₂_comp (R := Node.Became e) (S := Node.Became e) (fun _ _ _ => Node.Became.trans) (List.rel_append hn (forall₂_refl (fun _ => .refl) _)) h3
    · exact forall₂_comp (R := Snapshooter.Became e) (S := Snapshooter.Became e) (fun _ _ _ => Snapshooter.Became.trans) (List.rel_append hs (forall₂_refl (fun _ => .refl) _)) h4
  | @run _ _ _ m _ _ _ _ _ hp _ ih =>
    subst hx
    rcases hr with rfl | ⟨rfl, ha, hq⟩
    · obtain ⟨n, rfl⟩ : ∃ j, n = j + 1 := ⟨n - 1, by omega⟩
      obtain ⟨r', ms, closed, hd, ⟨-, l, hl, htk⟩, hq, hc, h₁, ns₁, os, k₁, hin, -, -, rfl⟩ := C51_run hp
      have hr' : (if closed then [] else r'.inbox n) = r'.inbox n ∨
          ((if closed then [] else r'.inbox n) = [] ∧ r'.chan.abandoned = true ∧ r'.chan.queue = []) := by
        cases closed with
        | false => exact .inl rfl
        | true => exact .inr ⟨rfl, hc, hq⟩
      obtain ⟨h', ns', ss', inbox', l', h1, h2, h3, h4⟩ := ih rfl (by omega) hr'
      refine ⟨h', ns', ss', inbox', l ++ l', h1, ?_, ?_, ?_⟩
      · simp only [Receiver.drains, hd]; rw [h2, htk]; simp
      · rw [List.map_append, (attach_append _ _).1, ← List.append_assoc, hl]
        exact forall₂_comp (R := Node.Became e) (S := Node.Became e) (fun _ _ _ => Node.Became.trans)
          (List.rel_append hin.became (forall₂_refl (fun _ => .refl) _)) h3
      · rw [List.map_append, (attach_append _ _).2, ← List.append_assoc, hl]
        exact h4
    · obtain ⟨ns₁, os, k₁, hin, -, -, rfl⟩ := process_attached hp
      simp only [firstArrivals, List.append_nil] at hin
      obtain ⟨hd1, hd2⟩ := drain_abandoned ha hq
      obtain ⟨h', ns', ss', inbox', l, h1, h2, h3, h4⟩ := ih (r := r.drain.1) rfl (by omega : m ≤ n)
        (.inr ⟨rfl, by rw [hd1]; exact ha, by rw [hd1]; exact hq⟩)
      refine ⟨h', ns', ss', inbox', l, h1, ?_, ?_, ?_⟩
      · simp only [Receiver.drains]; rw [h2, hd1]
      · exact forall₂_comp (R := Node.Became e) (S := Node.Became e) (fun _ _ _ => Node.Became.trans)
          (List.rel_append hin.became (forall₂_refl (fun _ => .refl) _)) h3
      · simpa [firstArrivals] using h4

/-- A new attached mount is used: some runs (`m`, at least one) and snapshots in any order, while its handles are used by
any number of threads by any schedule and possibly dropped. `c` is its channel after the last run. Nothing is in the
queue then. The mount consists of what was in it at the beginning, followed by everything that was attached, in the order
of the calls: of each handle everything it was used for until then. All of them are there as what they have become by
the runs and snapshots since they were attached. -/
theorem C51_everything {e : Env} {m n : Nat} {h : MountHead} {ns : List (Node σ L)} {ss : List (Snapshooter σ L)}
    {programs : List (SendThread (Attach σ L))} {ahead : List (List Nat)} {x' : Node σ L}
    (hu : Node.Used e (.attached h ns ss (Receiver.inbox n ⟨.fresh none true programs, ahead⟩)) m x')
    (hm : 0 < m) (hn : m ≤ n) {c : Channel (Attach σ L)}
    (hc : c = (Receiver.drains m ⟨.fresh none true programs, ahead⟩).chan) :
    c.queue = [] ∧ (∀ t, byThread t c.taken ++ c.todo t = programOf programs t) ∧
      ((∀ th ∈ programs, th.holds = true) → c.abandoned = true → ∀ t, byThread t c.taken = programOf programs t) ∧
      ∃ h' ns' ss' inbox', x' = .attached h' ns' ss' inbox' ∧
        List.Forall₂ (Node.Became e) (ns ++ Attach.processors (c.taken.map (·.2))) ns' ∧
        List.Forall₂ (Snapshooter.Became e) (ss ++ Attach.snapshooters (c.taken.map (·.2))) ss' := by
  subst hc
  obtain ⟨ms, ht, hq⟩ := drains_took m ⟨.fresh none true programs, ahead⟩
  have hch : HandleChannel programs (Receiver.drains m ⟨.fresh none true programs, ahead⟩).chan :=
    HandleChannel.took ⟨[], by simp [NoDrop], rfl⟩ ht
  have hq := hq hm
  refine ⟨hq, fun t => ?_, fun hp ha t => ?_, ?_⟩
  · obtain ⟨h1, h2⟩ := C51_handles hch t
    rw [← h2, ← h1, hq]; simp [byThread]
  · rw [← C51_dropped hch hp ha t, ← (C51_handles hch t).1, hq]; simp [byThread]
  · obtain ⟨h', ns', ss', inbox', l, h1, h2, h3, h4⟩ := used_attached hu rfl hn (.inl rfl)
    have hl : (Receiver.drains m ⟨.fresh none true programs, ahead⟩).chan.taken = l := by
      rw [h2]; rfl
    rw [hl]
    exact ⟨h', ns', ss', inbox', h1, h3, h4⟩

/-! ## Example: two handles, one of them dropped; two runs -/

def twoHandles : List (SendThread (Attach Empty Nat)) :=
  [{ todo := [.processor (.processor exampleProcessor), .snapshooter (.constant "a" {} (.uint 1))] },
   { todo := [.processor (.processor idleProcessor)], drops := false }]

def attachedExample : Node Empty Nat :=
  .attached { lastActivity := 0 } [] [] (Receiver.inbox 2 ⟨.fresh none true twoHandles, [[0], [], [0, 1, 0]]⟩)

example : (attachedExample.process 3 .processAll ticking 1).map (fun r => (r.1.2, r.1.1.leaves.length)) =
    some (⟨3, 0, 5, 1⟩, 1) := rfl

/-- By the second run every addition of both handles is part of the mount. -/
example : ((do
      let (x, _) ← (Node.attached { lastActivity := 0 } [] [] (Receiver.inbox 2
        ⟨.fresh none true [{ todo := [.processor (.processor idleProcessor)] },
          { todo := [.processor (.processor idleProcessor)] }], [[0], [], [1]]⟩) : Node Empty Nat).process 3 .processAll
      let (y, _) ← x.process 3 .processAll
      return (x.leaves.length, y.leaves.length) : M _) ticking 1).map (·.1) =
    some (1, 2) := by rfl

example := C51_run (e := ticking) (max := 3) (strategy := .processAll) (k := 1) (h := { lastActivity := 0 }) (ns := []) (ss := [])
  (r := ⟨.fresh none true twoHandles, [[0], [], [0, 1, 0]]⟩) (n := 1) rfl

end Metrix
