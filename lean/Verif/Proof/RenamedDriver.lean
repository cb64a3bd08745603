import Verif.Proof.Renamed

/-! Processors, mounts and drivers, with other names. -/

namespace Metrix
variable {σ L : Type} {ρ : String → String}

theorem renamed_ite {A : Type} {R : A → A → Prop} {p q : Bool} (h : p = q) {a a' b b' : A} (h1 : R a a') (h2 : R b b') :
    R (if p = true then a else b) (if q = true then a' else b') := by
  subst h
  split
  · exact h1
  · exact h2

section Names
variable (hρ : Function.Injective ρ)
include hρ

theorem renamed_isName (a : Option String) (n : String) :
    (match a with | some m => m == n | none => false) = (match a.map ρ with | some m => m == ρ n | none => false) := by
  cases a with
  | none => rfl
  | some m => simp only [Option.map_some, beq_eq_decide, hρ.eq_iff]

theorem renamed_isOther (a : Option String) (n : String) :
    (match a with | some m => m != n | none => true) = (match a.map ρ with | some m => m != ρ n | none => true) := by
  cases a with
  | none => rfl
  | some m => simp only [Option.map_some, bne, beq_eq_decide, hρ.eq_iff]

theorem Cockpit.Renamed.addPanel {c c' : Cockpit σ L} (h : c.Renamed ρ c') {p p' : Panel σ L} (hp : p.Renamed ρ p') :
    (c.addPanel p).Renamed ρ (c'.addPanel p') := by
  unfold Cockpit.addPanel
  have hadd : Cockpit.Renamed ρ { c with panels := c.panels ++ [p] } { c' with panels := c'.panels ++ [p'] } :=
    ⟨h.head, like_append h.panels (.cons hp .nil), h.handlers, h.snapshooters⟩
  rw [hp.name]
  cases p.name with
  | none => exact hadd
  | some n =>
    simp only [Option.map_some]
    exact renamed_ite (R := Cockpit.Renamed ρ)
      (like_any (fun a b hab => by rw [Panel.Renamed.name hab]; exact renamed_isName hρ _ _) h.panels) h hadd

theorem Cockpit.Renamed.removePanel {c c' : Cockpit σ L} (h : c.Renamed ρ c') (n : String) :
    (c.removePanel n).Renamed ρ (c'.removePanel (ρ n)) :=
  ⟨h.head, like_filter (fun a b hab => by rw [Panel.Renamed.name hab]; exact renamed_isOther hρ _ _) h.panels, h.handlers,
    h.snapshooters⟩

theorem renamed_modifyFirst {g g' : Cockpit σ L → Cockpit σ L} (hg : ∀ c c', Cockpit.Renamed ρ c c' → Cockpit.Renamed ρ (g c) (g' c'))
    (n : String) {cs cs' : List (Cockpit σ L)} (h : List.Forall₂ (Cockpit.Renamed ρ) cs cs') :
    List.Forall₂ (Cockpit.Renamed ρ) (ProcessorState.modifyFirst n g cs) (ProcessorState.modifyFirst (ρ n) g' cs') := by
  induction h with
  | nil => exact .nil
  | @cons c c' cs cs' h1 h2 ih =>
    have hn : (c'.name == some (ρ n)) = (c.name == some n) := by
      rw [h1.name]
      cases c.name with
      | none => rfl
      | some m => simp only [Option.map_some, beq_eq_decide, Option.some.injEq, hρ.eq_iff]
    simp only [ProcessorState.modifyFirst, hn]
    split
    · exact .cons (hg _ _ h1) h2
    · exact .cons h1 ih

end Names

variable [Custom σ L]

/-! ## Processors -/

theorem renamed_handleCockpits [DecidableEq L] (o : Observation L) {cs cs' : List (Cockpit σ L)}
    (h : List.Forall₂ (Cockpit.Renamed ρ) cs cs') :
    Same (List.Forall₂ (Cockpit.Renamed ρ)) (handleCockpits o cs) (handleCockpits o cs') := by
  induction h with
  | nil => exact .pure ⟨rfl, .nil⟩
  | cons h1 _ ih =>
    refine .bind _ (h1.handle o) ?_
    rintro ⟨a, n₁⟩ ⟨a', _⟩ ⟨rfl, h1⟩
    refine .bind _ ih ?_
    rintro ⟨b, n₂⟩ ⟨b', _⟩ ⟨rfl, h2⟩
    exact .pure ⟨rfl, .cons h1 h2⟩

theorem renamed_putCockpits (hc : CustomFrames σ L) {cs cs' : List (Cockpit σ L)} (h : List.Forall₂ (Cockpit.Renamed ρ) cs cs')
    {s s' : Snapshot} (e : Snapshot.unnamed s = Snapshot.unnamed s') :
    Reshows (List.Forall₂ (Cockpit.Renamed ρ)) (putCockpits false cs s) (putCockpits false cs' s') := by
  induction h generalizing s s' with
  | nil => exact .pure ⟨e, .nil⟩
  | cons h1 _ ih =>
    refine .bind _ (h1.put hc e) ?_
    rintro ⟨a, n₁⟩ ⟨a', m₁⟩ ⟨e, h1⟩
    refine .bind _ (ih e) ?_
    rintro ⟨b, n₂⟩ ⟨b', m₂⟩ ⟨e, h2⟩
    exact .pure ⟨e, .cons h1 h2⟩

theorem ProcessorState.Renamed.put (hc : CustomFrames σ L) {x x' : ProcessorState σ L} (h : x.Renamed ρ x') {s s' : Snapshot}
    (e : Snapshot.unnamed s = Snapshot.unnamed s') :
    Reshows (ProcessorState.Renamed ρ) (x.putSnapshot s false) (x'.putSnapshot s' false) := by
  unfold ProcessorState.putSnapshot
  rw [h.name, h.activity]
  refine .bind _ (reshows_putFlags x.activity (unnamed_levelFor x.name e)) ?_
  rintro ⟨go, t⟩ ⟨_, t'⟩ ⟨e0, rfl⟩
  refine .ite (.bind _ (renamed_putCockpits hc h.cockpits e0) ?_) (.pure ⟨unnamed_closeLevel x.name e e0, h⟩)
  rintro ⟨a, s₁⟩ ⟨a', t₁⟩ ⟨e1, h1⟩
  refine .bind _ (renamed_putHandlers hc h.handlers e1) ?_
  rintro ⟨a, s₂⟩ ⟨a', t₂⟩ ⟨e2, h2⟩
  refine .bind _ (renamed_putSnapshooters hc h.snapshooters e2) ?_
  rintro ⟨a, s₃⟩ ⟨a', t₃⟩ ⟨e3, h3⟩
  exact .pure ⟨unnamed_closeLevel x.name e e3, rfl, h1, h2, h3, rfl⟩

theorem Processor.Renamed.put (hc : CustomFrames σ L) {p p' : Processor σ L} (h : p.Renamed ρ p') {s s' : Snapshot}
    (e : Snapshot.unnamed s = Snapshot.unnamed s') :
    Reshows (Processor.Renamed ρ) (p.putSnapshot s false) (p'.putSnapshot s' false) := by
  unfold Processor.putSnapshot
  refine .bind _ (h.state.put hc e) ?_
  rintro ⟨a, s⟩ ⟨a', s'⟩ ⟨e, hs⟩
  exact .pure ⟨e, hs, h.receiver, h.isDisconnected⟩

section Processing
variable [DecidableEq L] (hρ : Function.Injective ρ)
include hρ

theorem ProcessorState.Renamed.receive {s s' : ProcessorState σ L} (h : s.Renamed ρ s') (decider : Decider) (t : Tally) {m m' : Message σ L}
    (hm : m.Renamed ρ m') : Same (ProcessorState.Renamed ρ) (s.receive decider t m) (s'.receive decider t m') := by
  cases hm with
  | observation o =>
    simp only [ProcessorState.receive]
    refine .ite (.bind _ (renamed_handleCockpits o h.cockpits) ?_) (.pure ⟨rfl, h⟩)
    rintro ⟨a, n₁⟩ ⟨a', _⟩ ⟨rfl, h1⟩
    refine .bind _ (renamed_handleHandlers o h.handlers) ?_
    rintro ⟨b, n₂⟩ ⟨b', _⟩ ⟨rfl, h2⟩
    exact .pure ⟨rfl, h.name, h1, h2, h.snapshooters, h.activity⟩
  | @addCockpit c c' hcp =>
    refine .pure ⟨rfl, ?_⟩
    have hadd := like_append h.cockpits (.cons hcp .nil)
    unfold ProcessorState.addCockpit
    rw [hcp.name]
    cases c.name with
    | none => exact ⟨h.name, hadd, h.handlers, h.snapshooters, h.activity⟩
    | some n =>
      simp only [Option.map_some]
      exact renamed_ite (R := ProcessorState.Renamed ρ)
        (like_any (fun a b hab => by rw [Cockpit.Renamed.name hab]; exact renamed_isName hρ _ _) h.cockpits) h
        ⟨h.name, hadd, h.handlers, h.snapshooters, h.activity⟩
  | removeCockpit n =>
    exact .pure ⟨rfl, h.name, like_filter (fun a b hab => by rw [Cockpit.Renamed.name hab]; exact renamed_isOther hρ _ _) h.cockpits,
      h.handlers, h.snapshooters, h.activity⟩
  | addHandler hh =>
    exact .pure ⟨rfl, h.name, h.cockpits, like_append h.handlers (.cons hh .nil), h.snapshooters, h.activity⟩
  | addPanelToCockpit n hp =>
    exact .pure ⟨rfl, h.name, renamed_modifyFirst hρ (fun c c' hcc => hcc.addPanel hρ hp) n h.cockpits, h.handlers,
      h.snapshooters, h.activity⟩
  | removePanelFromCockpit n k =>
    exact .pure ⟨rfl, h.name, renamed_modifyFirst hρ (fun c c' hcc => hcc.removePanel hρ k) n h.cockpits, h.handlers,
      h.snapshooters, h.activity⟩

theorem Processor.Renamed.receiveLoop (decider : Decider) (n : Nat) {p p' : Processor σ L} (h : p.Renamed ρ p') (t : Tally) :
    Same (Processor.Renamed ρ) (p.receiveLoop decider n t) (p'.receiveLoop decider n t) := by
  induction n generalizing p p' t with
  | zero => exact .pure ⟨rfl, h⟩
  | succ n ih =>
    unfold Processor.receiveLoop
    obtain ⟨h1, h2⟩ := h.receiver.tryRecv
    generalize p.receiver.tryRecv = a at h1 h2 ⊢
    generalize p'.receiver.tryRecv = b at h1 h2 ⊢
    obtain ⟨ra, xa⟩ := a
    obtain ⟨rb, xb⟩ := b
    cases h2 with
    | ok hm =>
      refine .bind _ (h.state.receive hρ decider t hm) ?_
      rintro ⟨s, t⟩ ⟨s', _⟩ ⟨rfl, hs⟩
      exact ih (p := { p with state := s, receiver := ra }) (p' := { p' with state := s', receiver := rb })
        ⟨hs, h1, h.isDisconnected⟩ _
    | empty =>
      exact ih (p := { p with receiver := ra }) (p' := { p' with receiver := rb }) ⟨h.state, h1, h.isDisconnected⟩ _
    | disconnected => exact .pure ⟨rfl, h.state, h1, rfl⟩

theorem Processor.Renamed.process {p p' : Processor σ L} (h : p.Renamed ρ p') (max : Nat) (strategy : Strategy) :
    Same (Processor.Renamed ρ) (p.process max strategy) (p'.process max strategy) := by
  unfold Processor.process
  rw [h.isDisconnected]
  refine .ite (.pure ⟨rfl, h⟩) (.bindEq _ fun decider => .bind _ (h.receiveLoop hρ decider max {}) ?_)
  rintro ⟨p, t⟩ ⟨p', _⟩ ⟨rfl, h⟩
  obtain ⟨h1, h2⟩ := h.receiver.len
  simp only [h2]
  refine .ite (.bindEq _ fun now => .pure ⟨rfl, ?_, h1, h.isDisconnected⟩) (.pure ⟨rfl, h.state, h1, h.isDisconnected⟩)
  exact ⟨h.state.name, h.state.cockpits, h.state.handlers, h.state.snapshooters, by dsimp only; rw [h.state.activity]⟩

/-! ## Mounts -/

variable [CustomProcessor σ]

omit hρ in
theorem MountHead.Renamed.note {h h' : MountHead} (hr : h.Renamed ρ h') (o : Outcome) :
    M.Rel (MountHead.Renamed ρ) (h.afterRun o) (h'.afterRun o) := by
  unfold MountHead.afterRun
  exact .ite (.bindEq _ fun now => .pure ⟨hr.name, rfl, hr.maxInactivity⟩) (.pure hr)

mutual
theorem Node.Renamed.process (max : Nat) (strategy : Strategy) : ∀ {n n' : Node σ L}, n.Renamed ρ n' →
    Same (Node.Renamed ρ) (n.process max strategy) (n'.process max strategy)
  | .processor p, _, .processor h => by
    rw [Node.process, Node.process]
    exact same_wrap (h.process hρ max strategy) fun _ _ => .processor
  | .mount h ns ss, _, .mount h0 h1 h2 => by
    rw [Node.process, Node.process]
    refine .bind _ (renamed_processNodes max strategy h1) ?_
    rintro ⟨a, o⟩ ⟨a', _⟩ ⟨rfl, h1⟩
    exact .bind _ (h0.note o) fun _ _ h0 => .pure ⟨rfl, .mount h0 h1 h2⟩
  | .attached h ns ss [], _, .attached h0 h1 h2 .nil => by
    rw [Node.process, Node.process]
    refine .bind _ (renamed_processNodes max strategy h1) ?_
    rintro ⟨a, o⟩ ⟨a', _⟩ ⟨rfl, h1⟩
    exact .bind _ (h0.note o) fun _ _ h0 => .pure ⟨rfl, .attached h0 h1 h2 .nil⟩
  | .attached h ns ss (⟨ps, ss', closed⟩ :: inbox), _, .attached h0 h1 h2 (.cons (.mk _ h3 h4) h5) => by
    rw [Node.process, Node.process]
    refine .bind _ (renamed_processNodes max strategy h1) ?_
    rintro ⟨a, o⟩ ⟨a', _⟩ ⟨rfl, h1⟩
    refine .bind _ (renamed_processNodes max strategy h3) ?_
    rintro ⟨b, o'⟩ ⟨b', _⟩ ⟨rfl, h3⟩
    refine .bind _ (h0.note _) fun _ _ h0 => .pure ⟨rfl, .attached h0 (like_append h1 h3) (like_append h2 h4) ?_⟩
    split
    · exact .nil
    · exact h5
  | .driver _, _, .driver h => by
    rw [Node.process, Node.process]
    exact .pure ⟨rfl, .driver h⟩
  | .custom _, _, .custom s => by
    rw [Node.process]
    exact .bindEq _ fun r => .pure ⟨rfl, .custom _⟩
theorem renamed_processNodes (max : Nat) (strategy : Strategy) : ∀ {ns ns' : List (Node σ L)}, List.Forall₂ (Node.Renamed ρ) ns ns' →
    Same (List.Forall₂ (Node.Renamed ρ)) (processNodes max strategy ns) (processNodes max strategy ns')
  | [], _, .nil => by rw [processNodes]; exact .pure ⟨rfl, .nil⟩
  | n :: ns, _, .cons h1 h2 => by
    rw [processNodes, processNodes]
    refine .bind _ (Node.Renamed.process max strategy h1) ?_
    rintro ⟨a, n₁⟩ ⟨a', _⟩ ⟨rfl, h1⟩
    refine .bind _ (renamed_processNodes max strategy h2) ?_
    rintro ⟨b, n₂⟩ ⟨b', _⟩ ⟨rfl, h2⟩
    exact .pure ⟨rfl, .cons h1 h2⟩
end
end Processing

variable [CustomProcessor σ]

theorem MountHead.Renamed.activity {h h' : MountHead} (hr : h.Renamed ρ h') : h'.activity = h.activity := by
  unfold MountHead.activity
  rw [hr.lastActivity, hr.maxInactivity]

theorem CustomProcessor.reshows (hp : CustomProcessorFrames σ) (c : σ) {x y : Snapshot} (h : Snapshot.unnamed x = Snapshot.unnamed y) :
    Reshows Eq (CustomProcessor.putSnapshot c x false) (CustomProcessor.putSnapshot c y false) := by
  intro e k
  rw [hp c x, hp c y]
  cases CustomProcessor.putSnapshot c [] false e k with
  | none => exact .none
  | some r => exact .some ⟨rfl, by rw [unnamed_append, unnamed_append, h], rfl⟩

mutual
theorem Node.Renamed.put (hc : CustomFrames σ L) (hp : CustomProcessorFrames σ) : ∀ {n n' : Node σ L}, n.Renamed ρ n' →
    ∀ {s s' : Snapshot}, Snapshot.unnamed s = Snapshot.unnamed s' →
    Reshows (Node.Renamed ρ) (n.putSnapshot false s) (n'.putSnapshot false s')
  | .processor p, _, .processor h, s, s', e => by
    rw [Node.putSnapshot, Node.putSnapshot]
    exact reshows_wrap (h.put hc e) fun _ _ => .processor
  | .mount h ns ss, _, .mount h0 h1 h2, s, s', e => by
    rw [Node.putSnapshot, Node.putSnapshot, h0.name, h0.activity]
    refine .bind _ (reshows_putFlags h.activity (unnamed_levelFor h.name e)) ?_
    rintro ⟨go, t⟩ ⟨_, t'⟩ ⟨e0, rfl⟩
    refine .ite (.bind _ (renamed_putNodes hc hp h1 e0) ?_) (.pure ⟨unnamed_closeLevel h.name e e0, .mount h0 h1 h2⟩)
    rintro ⟨a, s₁⟩ ⟨a', t₁⟩ ⟨e1, h1⟩
    refine .bind _ (renamed_putSnapshooters hc h2 e1) ?_
    rintro ⟨b, s₂⟩ ⟨b', t₂⟩ ⟨e2, h2⟩
    exact .pure ⟨unnamed_closeLevel h.name e e2, .mount h0 h1 h2⟩
  | .attached h ns ss inbox, _, .attached h0 h1 h2 h3, s, s', e => by
    rw [Node.putSnapshot, Node.putSnapshot, h0.name, h0.activity]
    refine .bind _ (reshows_putFlags h.activity (unnamed_levelFor h.name e)) ?_
    rintro ⟨go, t⟩ ⟨_, t'⟩ ⟨e0, rfl⟩
    refine .ite (.bind _ (renamed_putNodes hc hp h1 e0) ?_) (.pure ⟨unnamed_closeLevel h.name e e0, .attached h0 h1 h2 h3⟩)
    rintro ⟨a, s₁⟩ ⟨a', t₁⟩ ⟨e1, h1⟩
    refine .bind _ (renamed_putSnapshooters hc h2 e1) ?_
    rintro ⟨b, s₂⟩ ⟨b', t₂⟩ ⟨e2, h2⟩
    exact .pure ⟨unnamed_closeLevel h.name e e2, .attached h0 h1 h2 h3⟩
  | .driver _, _, .driver h, s, s', e => by
    rw [Node.putSnapshot, Node.putSnapshot]
    cases h with
    | nil => exact .pure ⟨e, .driver .nil⟩
    | @cons a b as bs h1 h2 =>
      unfold AnswersRenamed at h1
      cases hx : a false with
      | none => cases hy : b false with
        | none => simp only [putAnswer, hx, hy]; exact .pure ⟨e, .driver h2⟩
        | some _ => rw [hx, hy] at h1; cases h1
      | some x => cases hy : b false with
        | none => rw [hx, hy] at h1; cases h1
        | some y =>
          rw [hx, hy] at h1
          simp only [putAnswer, hx, hy]
          refine .pure ⟨?_, .driver h2⟩
          dsimp only
          rw [unnamed_append, unnamed_append, e, Option.some.inj h1]
  | .custom _, _, .custom c, s, s', e => by
    rw [Node.putSnapshot, Node.putSnapshot]
    refine reshows_wrap (CustomProcessor.reshows hp c e) ?_
    rintro a _ rfl
    exact .custom _
theorem renamed_putNodes (hc : CustomFrames σ L) (hp : CustomProcessorFrames σ) : ∀ {ns ns' : List (Node σ L)},
    List.Forall₂ (Node.Renamed ρ) ns ns' → ∀ {s s' : Snapshot}, Snapshot.unnamed s = Snapshot.unnamed s' →
    Reshows (List.Forall₂ (Node.Renamed ρ)) (putNodes false ns s) (putNodes false ns' s')
  | [], _, .nil, s, s', e => by rw [putNodes, putNodes]; exact .pure ⟨e, .nil⟩
  | n :: ns, _, .cons h1 h2, s, s', e => by
    rw [putNodes, putNodes]
    refine .bind _ (Node.Renamed.put hc hp h1 e) ?_
    rintro ⟨a, n₁⟩ ⟨a', m₁⟩ ⟨e, h1⟩
    refine .bind _ (renamed_putNodes hc hp h2 e) ?_
    rintro ⟨b, n₂⟩ ⟨b', m₂⟩ ⟨e, h2⟩
    exact .pure ⟨e, .cons h1 h2⟩
end

/-! ## Drivers -/

theorem reshows_driverInstruments (i : DriverInstruments) {s s' : Snapshot} (e : Snapshot.unnamed s = Snapshot.unnamed s') :
    Reshows Eq (i.putSnapshot s false) (i.putSnapshot s' false) := by
  unfold DriverInstruments.putSnapshot
  refine .bindEq _ fun _ => .bindEq _ fun _ => .bindEq _ fun _ => .bindEq _ fun _ => .bindEq _ fun _ => .bindEq _ fun _ =>
    .bindEq _ fun _ => .bindEq _ fun _ => .bindEq _ fun _ => .bindEq _ fun _ => .bindEq _ fun _ => .bindEq _ fun _ =>
    .bindEq _ fun _ => .bindEq _ fun _ => .pure ⟨unnamed_push e _ _ rfl, rfl⟩

theorem LoopState.Renamed.addSnapshotValues (hc : CustomFrames σ L) (hp : CustomProcessorFrames σ) {l l' : LoopState σ L}
    (h : l.Renamed ρ l') (started : Int) :
    Reshows (LoopState.Renamed ρ) (l.addSnapshotValues [] false started) (l'.addSnapshotValues [] false started) := by
  unfold LoopState.addSnapshotValues
  rw [h.metrics]
  refine .bind _ (renamed_putNodes hc hp h.processors rfl) ?_
  rintro ⟨a, s⟩ ⟨a', t⟩ ⟨e, h1⟩
  refine .bind _ (renamed_putSnapshooters hc h.snapshooters e) ?_
  rintro ⟨b, s⟩ ⟨b', t⟩ ⟨e, h2⟩
  cases l'.metrics with
  | none => exact .pure ⟨e, h.name, rfl, h.lastOutcomeLogged, h.droppedSinceLastLogged, h1, h2, h.strategy, h.paused, h.warned⟩
  | some i =>
    refine .bindEq _ fun i => .bind _ (reshows_driverInstruments i e) ?_
    rintro ⟨j, s⟩ ⟨_, t⟩ ⟨e, rfl⟩
    exact .pure ⟨e, h.name, rfl, h.lastOutcomeLogged, h.droppedSinceLastLogged, h1, h2, h.strategy, h.paused, h.warned⟩

theorem LoopState.Renamed.makeSnapshot (hc : CustomFrames σ L) (hp : CustomProcessorFrames σ) {l l' : LoopState σ L}
    (h : l.Renamed ρ l') : Reshows (LoopState.Renamed ρ) (l.makeSnapshot false) (l'.makeSnapshot false) := by
  unfold LoopState.makeSnapshot
  rw [h.name]
  refine .bindEq _ fun started => ?_
  cases l.name with
  | none => exact h.addSnapshotValues hc hp started
  | some n =>
    refine .bind _ (h.addSnapshotValues hc hp started) ?_
    rintro ⟨a, s⟩ ⟨a', t⟩ ⟨e, h1⟩
    exact .pure ⟨unnamed_push (s := []) (t := []) rfl n (ρ n) (unnamed_group e), h1⟩

theorem LoopState.Renamed.handle (hc : CustomFrames σ L) (hp : CustomProcessorFrames σ) {l l' : LoopState σ L} (h : l.Renamed ρ l')
    {m m' : DriverMsg σ L} (hm : m.Renamed ρ m') :
    M.Rel (fun a b => b.2.map Snapshot.unnamed = a.2.map Snapshot.unnamed ∧ LoopState.Renamed ρ a.1 b.1) (l.handle m) (l'.handle m') := by
  obtain ⟨h1, h3, h4, h5, h6, h7, h8, h9, h10⟩ := h
  cases hm with
  | addProcessor hn => exact .pure ⟨rfl, h1, h3, h4, h5, like_append h6 (.cons hn .nil), h7, h8, h9, h10⟩
  | addSnapshooter hs => exact .pure ⟨rfl, h1, h3, h4, h5, h6, like_append h7 (.cons hs .nil), h8, h9, h10⟩
  | getSnapshot id =>
    refine .bind _ (LoopState.Renamed.makeSnapshot hc hp ⟨h1, h3, h4, h5, h6, h7, h8, h9, h10⟩) ?_
    rintro ⟨a, s⟩ ⟨a', t⟩ ⟨e, h1⟩
    exact .pure ⟨congrArg some e.symm, h1⟩
  | setStrategy s => exact .pure ⟨rfl, h1, h3, h4, h5, h6, h7, rfl, h9, h10⟩
  | pause => exact .pure ⟨rfl, h1, h3, h4, h5, h6, h7, h8, rfl, h10⟩
  | resume => exact .pure ⟨rfl, h1, h3, h4, h5, h6, h7, h8, rfl, h10⟩

theorem LoopState.Renamed.begin (hc : CustomFrames σ L) (hp : CustomProcessorFrames σ) {l l' : LoopState σ L} (h : l.Renamed ρ l')
    {m m' : Option (DriverMsg σ L)} (hm : Option.Rel (DriverMsg.Renamed ρ) m m') :
    M.Rel (fun a b => b.2.1 = a.2.1 ∧ b.2.2.map Snapshot.unnamed = a.2.2.map Snapshot.unnamed ∧ LoopState.Renamed ρ a.1 b.1)
      (l.begin m) (l'.begin m') := by
  unfold LoopState.begin
  refine .bindEq _ fun started => ?_
  cases hm with
  | none => exact .pure ⟨rfl, rfl, h⟩
  | some hm =>
    refine .bind _ (h.handle hc hp hm) ?_
    rintro ⟨a, s⟩ ⟨a', t⟩ ⟨e, h1⟩
    exact .pure ⟨rfl, e, h1⟩

omit [Custom σ L] [CustomProcessor σ] in
theorem LoopState.Renamed.logDropped {l l' : LoopState σ L} (h : l.Renamed ρ l') (n : Nat) :
    M.Rel (LoopState.Renamed ρ) (l.logDropped n) (l'.logDropped n) := by
  obtain ⟨h1, h3, h4, h5, h6, h7, h8, h9, h10⟩ := h
  unfold LoopState.logDropped
  simp only [h4, h5, h10]
  refine .ite (.bindEq _ fun now => .ite (.bindEq _ fun readings => .bindEq _ fun now => .pure ⟨h1, h3, rfl, rfl, h6, h7, h8, h9, rfl⟩) ?_) ?_
  · exact .pure ⟨h1, h3, rfl, rfl, h6, h7, h8, h9, rfl⟩
  · exact .pure ⟨h1, h3, rfl, rfl, h6, h7, h8, h9, rfl⟩

omit [Custom σ L] [CustomProcessor σ] in
theorem LoopState.Renamed.noteRun {l l' : LoopState σ L} (h : l.Renamed ρ l') (o : Outcome) (started : Int) :
    M.Rel (LoopState.Renamed ρ) (l.noteRun o started) (l'.noteRun o started) := by
  unfold LoopState.noteRun
  rw [h.metrics]
  cases l'.metrics with
  | none => exact .pure h
  | some i =>
    obtain ⟨h1, h3, h4, h5, h6, h7, h8, h9, h10⟩ := h
    exact .bindEq _ fun i => .pure ⟨h1, rfl, h4, h5, h6, h7, h8, h9, h10⟩

omit [Custom σ L] [CustomProcessor σ] in
theorem LoopState.Renamed.reportElapsed {l l' : LoopState σ L} (h : l.Renamed ρ l') (started : Int) (t : Nat) :
    M.Rel (LoopState.Renamed ρ) (l.reportElapsed started t) (l'.reportElapsed started t) := by
  unfold LoopState.reportElapsed
  rw [h.metrics]
  cases l'.metrics with
  | none => exact .pure h
  | some i =>
    refine .bindEq _ fun now => .bindEq _ fun it => .bindEq _ fun rt => .ite (.bindEq _ fun e => .bindEq _ fun i => ?_) (.pure h)
    obtain ⟨h1, h3, h4, h5, h6, h7, h8, h9, h10⟩ := h
    exact .pure ⟨h1, rfl, h4, h5, h6, h7, h8, h9, h10⟩

theorem LoopState.Renamed.work [DecidableEq L] (hρ : Function.Injective ρ) {l l' : LoopState σ L} (h : l.Renamed ρ l') (started : Int) :
    Same (LoopState.Renamed ρ) (l.work started) (l'.work started) := by
  unfold LoopState.work
  rw [h.paused, h.strategy]
  refine .ite (.bindEq _ fun r => .pure ⟨rfl, h⟩) (.bindEq _ fun runStarted => ?_)
  refine .bind _ (renamed_processNodes hρ 1000 l'.strategy h.processors) ?_
  rintro ⟨a, o⟩ ⟨a', _⟩ ⟨rfl, h1⟩
  refine .bindEq _ fun now => ?_
  have hl : LoopState.Renamed ρ { l with processors := a, strategy := l'.strategy, paused := l'.paused }
      { l' with processors := a' } :=
    ⟨h.name, h.metrics, h.lastOutcomeLogged, h.droppedSinceLastLogged, h1, h.snapshooters, rfl, rfl, h.warned⟩
  refine .bind _ (hl.logDropped o.dropped) fun b b' hb => ?_
  refine .bind _ (hb.noteRun o runStarted) fun c c' hc => ?_
  refine .ite (.pure ⟨rfl, hc⟩) (.bindEq _ fun finished => .bindEq _ fun readings => ?_)
  refine .bind _ (hc.reportElapsed started _) fun d d' hd => .pure ⟨rfl, hd⟩

omit [Custom σ L] [CustomProcessor σ] in
theorem renamed_pollDriver (blind : Bool) {a b : Receiver (DriverMsg σ L)} (h : a.Like (DriverMsg.Renamed ρ) b) :
    (pollDriver blind a).1.Like (DriverMsg.Renamed ρ) (pollDriver blind b).1 ∧
    match (pollDriver blind a).2, (pollDriver blind b).2 with
    | .stop, .stop => True
    | .go m, .go m' => Option.Rel (DriverMsg.Renamed ρ) m m'
    | _, _ => False := by
  have hw := h.wait
  obtain ⟨h1, h2⟩ := hw.tryRecv
  unfold pollDriver
  simp only [hw.chan.abandoned]
  split
  · exact ⟨hw, trivial⟩
  · generalize a.wait.tryRecv = x at h1 h2 ⊢
    generalize b.wait.tryRecv = y at h1 h2 ⊢
    obtain ⟨ra, xa⟩ := x
    obtain ⟨rb, xb⟩ := y
    cases h2 with
    | ok hm => exact ⟨h1, .some hm⟩
    | empty => exact ⟨h1, .none⟩
    | disconnected => exact ⟨h1, trivial⟩

theorem DriverThread.Renamed.iterate [DecidableEq L] (hρ : Function.Injective ρ) (hc : CustomFrames σ L) (hp : CustomProcessorFrames σ)
    {t t' : DriverThread σ L} (h : t.Renamed ρ t') (e : Env) (k : Nat) : (t.iterate e k).1.Renamed ρ (t'.iterate e k).1 ∧
      Option.Rel (Iteration.Renamed ρ) (t.iterate e k).2.1 (t'.iterate e k).2.1 ∧ (t.iterate e k).2.2 = (t'.iterate e k).2.2 := by
  cases h with
  | ended h => exact ⟨.ended h, .none, rfl⟩
  | @running a b h1 h2 h3 =>
    unfold DriverThread.iterate
    obtain ⟨h4, h5⟩ := renamed_pollDriver (b.blind.headD false) h2
    simp only [h3]
    generalize pollDriver (b.blind.headD false) a.receiver = x at h4 h5 ⊢
    generalize pollDriver (b.blind.headD false) b.receiver = y at h4 h5 ⊢
    obtain ⟨ra, xa⟩ := x
    obtain ⟨rb, xb⟩ := y
    cases xa with
    | stop => cases xb with
      | stop => exact ⟨.ended h4.chan.dropReceiver, .none, rfl⟩
      | go _ => exact h5.elim
    | go m => cases xb with
      | stop => exact h5.elim
      | go m' =>
        have hb := h1.begin hc hp h5 e k
        simp only at hb h4 h5 ⊢
        generalize a.state.begin m e k = p at hb ⊢
        generalize b.state.begin m' e k = q at hb ⊢
        cases hb with
        | none => exact ⟨.ended h4.chan.dropReceiver, .some ⟨h5, rfl, rfl, rfl⟩, rfl⟩
        | @some r r' hb =>
          obtain ⟨⟨s, started, answer⟩, k₁⟩ := r
          obtain ⟨⟨s', started', answer'⟩, k₁'⟩ := r'
          obtain ⟨rfl, hst, ha, hs⟩ := hb
          simp only at hst
          subst hst
          have hw := hs.work hρ started' e k₁
          simp only at ha hs hw ⊢
          generalize s.work started' e k₁ = p at hw ⊢
          generalize s'.work started' e k₁ = q at hw ⊢
          cases hw with
          | none => exact ⟨.ended h4.chan.dropReceiver, .some ⟨h5, ha, rfl, rfl⟩, rfl⟩
          | @some r r' hw =>
            obtain ⟨⟨s, outcome, rest⟩, k₂⟩ := r
            obtain ⟨⟨s', outcome', rest'⟩, k₂'⟩ := r'
            obtain ⟨rfl, hp, hs⟩ := hw
            simp only [Prod.mk.injEq] at hp hs ⊢
            obtain ⟨rfl, rfl⟩ := hp
            exact ⟨.running hs h4 rfl, .some ⟨h5, ha, rfl, rfl⟩, trivial⟩

end Metrix
