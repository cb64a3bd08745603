import Verif.Proof.Channel
import Verif.Proof.Driver
import Verif.Proof.SafeTree
import Verif.Spec.SafeRun

/-! Processors, mounts and drivers do not panic in release builds. -/

namespace Metrix
variable {σ L μ : Type} {e : Env} {safe : σ → Prop}

/-! ## Channels -/

theorem Channel.pending_step (c : Channel μ) (t : Nat) : ∀ m ∈ (c.step t).pending, m ∈ c.pending := by
  have hs := c.step_spec t
  generalize c.step t = c' at hs
  have key : ∀ (th th' : SendThread μ), c.threads[t]? = some th → (∀ m ∈ th'.todo, m ∈ th.todo) →
      ∀ m ∈ (c.threads.set t th').flatMap (·.todo), m ∈ c.threads.flatMap (·.todo) := by
    intro th th' hth hsub m hm
    simp only [List.mem_flatMap] at hm ⊢
    obtain ⟨x, hx, hm⟩ := hm
    rcases List.mem_or_eq_of_mem_set hx with h | rfl
    · exact ⟨x, h, hm⟩
    · exact ⟨th, List.mem_of_getElem? hth, hsub m hm⟩
  cases hs with
  | nothing => exact fun m hm => hm
  | drop th hth hh htd hd =>
    intro m hm
    simp only [pending, List.mem_append] at hm ⊢
    exact hm.imp_right (key th { th with holds := false } hth (fun m hm => hm) m)
  | accept th x rest hth hh htd hr hf =>
    intro m hm
    simp only [pending, List.map_append, List.mem_append, List.map_cons, List.map_nil, List.mem_singleton] at hm ⊢
    rcases hm with (hm | rfl) | hm
    · exact .inl hm
    · exact .inr (List.mem_flatMap.mpr ⟨th, List.mem_of_getElem? hth, by simp [htd]⟩)
    · exact .inr (key th _ hth (fun m hm => by rw [htd]; exact List.mem_cons_of_mem _ hm) m hm)
  | lose th x rest hth hh htd hr =>
    intro m hm
    simp only [pending, List.mem_append] at hm ⊢
    exact hm.imp_right (key th _ hth (fun m hm => by rw [htd]; exact List.mem_cons_of_mem _ hm) m)

theorem Channel.pending_run (c : Channel μ) (s : List Nat) : ∀ m ∈ (c.run s).pending, m ∈ c.pending := by
  induction s generalizing c with
  | nil => exact fun m hm => hm
  | cons t s ih => exact fun m hm => c.pending_step t m (ih _ m hm)

theorem Receiver.pending_wait (r : Receiver μ) : ∀ m ∈ r.wait.chan.pending, m ∈ r.chan.pending := by
  unfold Receiver.wait
  split
  · exact fun m hm => hm
  · exact r.chan.pending_run _

/-- What is received was pending before. -/
theorem Receiver.pending_tryRecv {r r' : Receiver μ} {x : TryRecv μ} (h : r.tryRecv = (r', x)) :
    (∀ m ∈ r'.chan.pending, m ∈ r.chan.pending) ∧ ∀ m, x = .ok m → m ∈ r.chan.pending := by
  unfold Receiver.tryRecv at h
  simp only at h
  split at h
  · rename_i u m q hq
    cases h
    have hp : m ∈ r.wait.chan.pending := by simp [Channel.pending, hq]
    refine ⟨fun m' hm' => r.pending_wait m' ?_, fun m' hm' => ?_⟩
    · simp only [Channel.take, hq, Channel.pending, List.mem_append, List.map_cons] at hm' ⊢
      exact hm'.imp_left (List.mem_cons_of_mem _)
    · cases hm'; exact r.pending_wait _ hp
  · cases h
    refine ⟨r.pending_wait, fun m hm => ?_⟩
    split at hm <;> cases hm

/-! ## Lists of instruments -/

theorem AllSafe.flatMap {A : Type} {xs : List A} {f : A → List (Instrument σ)} :
    AllSafe e safe (xs.flatMap f) ↔ ∀ x ∈ xs, AllSafe e safe (f x) := by
  simp only [AllSafe, List.mem_flatMap]
  exact ⟨fun h x hx i hi => h i ⟨x, hx, hi⟩, fun h i ⟨x, hx, hi⟩ => h x hx i hi⟩

theorem AllSafe.panels {ps : List (Panel σ L)} :
    AllSafe e safe (instrumentsOfPanels ps) ↔ ∀ p ∈ ps, AllSafe e safe p.instruments := by
  induction ps with
  | nil => simp [instrumentsOfPanels, AllSafe.nil]
  | cons p ps ih => simp only [instrumentsOfPanels, AllSafe.append, ih, List.forall_mem_cons]

theorem AllSafe.handlers {hs : List (Handler σ L)} :
    AllSafe e safe (instrumentsOfHandlers hs) ↔ ∀ h ∈ hs, AllSafe e safe h.instruments := by
  induction hs with
  | nil => simp [instrumentsOfHandlers, AllSafe.nil]
  | cons p ps ih => simp only [instrumentsOfHandlers, AllSafe.append, ih, List.forall_mem_cons]

theorem AllSafe.snapshooters {ss : List (Snapshooter σ L)} :
    AllSafe e safe (instrumentsOfSnapshooters ss) ↔ ∀ s ∈ ss, AllSafe e safe s.instruments := by
  induction ss with
  | nil => simp [instrumentsOfSnapshooters, AllSafe.nil]
  | cons p ps ih => simp only [instrumentsOfSnapshooters, AllSafe.append, ih, List.forall_mem_cons]

theorem AllSafe.cockpits {cs : List (Cockpit σ L)} :
    AllSafe e safe (instrumentsOfCockpits cs) ↔ ∀ c ∈ cs, AllSafe e safe c.instruments := by
  induction cs with
  | nil => simp [instrumentsOfCockpits, AllSafe.nil]
  | cons p ps ih => simp only [instrumentsOfCockpits, AllSafe.append, ih, List.forall_mem_cons]

theorem AllSafe.nodes {ns : List (Node σ L)} :
    AllSafe e safe (instrumentsOfNodes ns) ↔ ∀ n ∈ ns, AllSafe e safe n.instruments := by
  induction ns with
  | nil => simp [instrumentsOfNodes, AllSafe.nil]
  | cons p ps ih => simp only [instrumentsOfNodes, AllSafe.append, ih, List.forall_mem_cons]

/-! ## Processors -/

/-- The parts of a processor are safe. -/
theorem ProcessorState.allSafe {s : ProcessorState σ L} : AllSafe e safe s.instruments ↔
    AllSafe e safe (instrumentsOfCockpits s.cockpits) ∧ AllSafe e safe (instrumentsOfHandlers s.handlers) ∧
      AllSafe e safe (instrumentsOfSnapshooters s.snapshooters) := by
  simp only [ProcessorState.instruments, AllSafe.append]

theorem Cockpit.safe_addPanel {c : Cockpit σ L} {p : Panel σ L} (hc : AllSafe e safe c.instruments)
    (hp : AllSafe e safe p.instruments) : AllSafe e safe (c.addPanel p).instruments := by
  have key : AllSafe e safe ({ c with panels := c.panels ++ [p] } : Cockpit σ L).instruments := by
    simp only [Cockpit.instruments, AllSafe.append, AllSafe.panels, List.mem_append, List.mem_singleton] at hc ⊢
    refine ⟨fun q hq => ?_, hc.2⟩
    rcases hq with hq | rfl
    · exact hc.1 q hq
    · exact hp
  unfold Cockpit.addPanel
  split
  · split
    · exact hc
    · exact key
  · exact key

theorem Cockpit.safe_removePanel {c : Cockpit σ L} (n : String) (hc : AllSafe e safe c.instruments) :
    AllSafe e safe (c.removePanel n).instruments := by
  simp only [Cockpit.removePanel, Cockpit.instruments, AllSafe.append, AllSafe.panels] at hc ⊢
  exact ⟨fun q hq => hc.1 q (List.mem_of_mem_filter hq), hc.2⟩

theorem ProcessorState.safe_modifyFirst {f : Cockpit σ L → Cockpit σ L} (n : String)
    (hf : ∀ c, AllSafe e safe c.instruments → AllSafe e safe (f c).instruments) {cs : List (Cockpit σ L)}
    (h : AllSafe e safe (instrumentsOfCockpits cs)) :
    AllSafe e safe (instrumentsOfCockpits (modifyFirst n f cs)) := by
  induction cs with
  | nil => exact h
  | cons c cs ih =>
    simp only [instrumentsOfCockpits, AllSafe.append] at h
    unfold modifyFirst
    split
    · simp only [instrumentsOfCockpits, AllSafe.append]; exact ⟨hf c h.1, h.2⟩
    · simp only [instrumentsOfCockpits, AllSafe.append]; exact ⟨h.1, ih h.2⟩

theorem ProcessorState.safe_addCockpit {s : ProcessorState σ L} {c : Cockpit σ L} (hs : AllSafe e safe s.instruments)
    (hc : AllSafe e safe c.instruments) : AllSafe e safe (s.addCockpit c).instruments := by
  have key : AllSafe e safe ({ s with cockpits := s.cockpits ++ [c] } : ProcessorState σ L).instruments := by
    simp only [allSafe, AllSafe.cockpits, List.mem_append, List.mem_singleton] at hs ⊢
    refine ⟨fun q hq => ?_, hs.2⟩
    rcases hq with hq | rfl
    · exact hs.1 q hq
    · exact hc
  unfold ProcessorState.addCockpit
  split
  · split
    · exact hs
    · exact key
  · exact key

theorem ProcessorState.safe_addHandler {s : ProcessorState σ L} {x : Handler σ L} (hs : AllSafe e safe s.instruments)
    (hx : AllSafe e safe x.instruments) : AllSafe e safe (s.addHandler x).instruments := by
  simp only [ProcessorState.addHandler, allSafe, AllSafe.handlers, List.mem_append, List.mem_singleton] at hs ⊢
  refine ⟨hs.1, fun q hq => ?_, hs.2.2⟩
  rcases hq with hq | rfl
  · exact hs.2.1 q hq
  · exact hx

theorem ProcessorState.safe_addSnapshooter {s : ProcessorState σ L} {x : Snapshooter σ L} (hs : AllSafe e safe s.instruments)
    (hx : AllSafe e safe x.instruments) : AllSafe e safe (s.addSnapshooter x).instruments := by
  simp only [ProcessorState.addSnapshooter, allSafe, AllSafe.snapshooters, List.mem_append, List.mem_singleton] at hs ⊢
  refine ⟨hs.1, hs.2.1, fun q hq => ?_⟩
  rcases hq with hq | rfl
  · exact hs.2.2 q hq
  · exact hx

theorem Processor.allSafe {p : Processor σ L} : AllSafe e safe p.instruments ↔
    AllSafe e safe p.state.instruments ∧ ∀ m ∈ p.receiver.chan.pending, AllSafe e safe m.instruments := by
  simp only [Processor.instruments, AllSafe.append, AllSafe.flatMap]

theorem Strategy.ok_decider {s : Strategy} (h : s.Safe e) : M.Ok e s.decider := by
  cases s with
  | processAll => exact .pure _
  | dropAll => exact .pure _
  | dropOlderThan d b =>
    unfold Strategy.decider
    simp only
    rw [← bind_assoc]
    exact .bind (.subDurNow h) fun _ => .pure _

section
variable [DecidableEq L] [Custom σ L] (he : e.profile = .release) (hc : CustomSafe L e safe)
include he hc

theorem tot_handleCockpits (o : Observation L) (cs : List (Cockpit σ L)) (h : AllSafe e safe (instrumentsOfCockpits cs)) :
    M.Tot e (handleCockpits o cs) fun r => AllSafe e safe (instrumentsOfCockpits r.1) := by
  induction cs with
  | nil => exact .pure h
  | cons c cs ih =>
    simp only [instrumentsOfCockpits, AllSafe.append] at h
    refine .bind (c.tot_handle he hc o h.1) fun r hr => .bind (ih h.2) fun r' hr' => .pure ?_
    simp only [instrumentsOfCockpits, AllSafe.append]
    exact ⟨hr, hr'⟩

theorem ProcessorState.tot_receive (dec : Decider) (s : ProcessorState σ L) (t : Tally) (m : Message σ L)
    (hs : AllSafe e safe s.instruments) (hm : AllSafe e safe m.instruments) :
    M.Tot e (s.receive dec t m) fun r => AllSafe e safe r.1.instruments := by
  cases m with
  | observation o =>
    refine .ite (fun _ => ?_) fun _ => .pure hs
    rw [allSafe] at hs
    refine .bind (tot_handleCockpits he hc o _ hs.1) fun r hr => .bind (tot_handleHandlers he hc o _ hs.2.1) fun r' hr' => .pure ?_
    rw [allSafe]
    exact ⟨hr, hr', hs.2.2⟩
  | addCockpit c => exact .pure (safe_addCockpit hs hm)
  | removeCockpit n =>
    refine .pure ?_
    simp only [ProcessorState.removeCockpit, allSafe, AllSafe.cockpits] at hs ⊢
    exact ⟨fun c hc => hs.1 c (List.mem_of_mem_filter hc), hs.2⟩
  | addHandler h => exact .pure (safe_addHandler hs hm)
  | addPanelToCockpit n p =>
    refine .pure ?_
    rw [allSafe] at hs ⊢
    exact ⟨safe_modifyFirst n (fun c hc => c.safe_addPanel hc hm) hs.1, hs.2⟩
  | removePanelFromCockpit n x =>
    refine .pure ?_
    rw [allSafe] at hs ⊢
    exact ⟨safe_modifyFirst n (fun c hc => c.safe_removePanel x hc) hs.1, hs.2⟩

theorem Processor.tot_receiveLoop (dec : Decider) (n : Nat) (p : Processor σ L) (t : Tally)
    (hp : AllSafe e safe p.instruments) :
    M.Tot e (p.receiveLoop dec n t) fun r => AllSafe e safe r.1.instruments := by
  induction n generalizing p t with
  | zero => exact .pure hp
  | succ n ih =>
    rw [allSafe] at hp
    unfold Processor.receiveLoop
    rcases hr : p.receiver.tryRecv with ⟨r, x⟩
    obtain ⟨h1, h2⟩ := Receiver.pending_tryRecv hr
    cases x with
    | ok m =>
      refine .bind (ProcessorState.tot_receive he hc dec _ t m hp.1 (hp.2 m (h2 m rfl))) fun s hs => ih _ _ ?_
      rw [allSafe]
      exact ⟨hs, fun m hm => hp.2 m (h1 m hm)⟩
    | empty =>
      refine ih _ _ ?_
      rw [allSafe]
      exact ⟨hp.1, fun m hm => hp.2 m (h1 m hm)⟩
    | disconnected =>
      refine .pure ?_
      rw [allSafe]
      exact ⟨hp.1, fun m hm => hp.2 m (h1 m hm)⟩

theorem Processor.tot_process (max : Nat) {st : Strategy} (hst : st.Safe e) (p : Processor σ L)
    (hp : AllSafe e safe p.instruments) : M.Tot e (p.process max st) fun r => AllSafe e safe r.1.instruments := by
  refine .ite (fun _ => .pure hp) fun _ => .okBind (st.ok_decider hst) fun dec =>
    .bind (tot_receiveLoop he hc dec max p {} hp) fun r hr => ?_
  have key : ∀ a, AllSafe e safe ({ r.1 with
      receiver := r.1.receiver.len.1, state := { r.1.state with activity := a } } : Processor σ L).instruments := by
    intro a
    rw [allSafe] at hr ⊢
    exact ⟨hr.1, fun m hm => hr.2 m (r.1.receiver.pending_wait m hm)⟩
  exact .ite (fun _ => .okBind .now fun _ => .pure (key _)) fun _ => .pure (key r.1.state.activity)

omit [DecidableEq L] in
theorem tot_putCockpits (d : Bool) (cs : List (Cockpit σ L)) (into : Snapshot)
    (h : AllSafe e safe (instrumentsOfCockpits cs)) :
    M.Tot e (putCockpits d cs into) fun r => AllSafe e safe (instrumentsOfCockpits r.1) := by
  induction cs generalizing into with
  | nil => exact .pure h
  | cons c cs ih =>
    simp only [instrumentsOfCockpits, AllSafe.append] at h
    refine .bind (c.tot_putSnapshot he hc d into h.1) fun r hr => .bind (ih _ h.2) fun r' hr' => .pure ?_
    simp only [instrumentsOfCockpits, AllSafe.append]
    exact ⟨hr, hr'⟩

omit [DecidableEq L] in
theorem ProcessorState.tot_putSnapshot (s : ProcessorState σ L) (into : Snapshot) (d : Bool)
    (hs : AllSafe e safe s.instruments) : M.Tot e (s.putSnapshot into d) fun r => AllSafe e safe r.1.instruments := by
  refine .okBind (s.activity.ok_putFlags _) fun g => .ite (fun _ => ?_) fun _ => .pure hs
  rw [allSafe] at hs
  refine .bind (tot_putCockpits he hc d _ _ hs.1) fun r hr => .bind (tot_putHandlers he hc d _ _ hs.2.1) fun r' hr' =>
    .bind (tot_putSnapshooters he hc d _ _ hs.2.2) fun r'' hr'' => .pure ?_
  rw [allSafe]
  exact ⟨hr, hr', hr''⟩

omit [DecidableEq L] in
theorem Processor.tot_putSnapshot (p : Processor σ L) (into : Snapshot) (d : Bool)
    (hp : AllSafe e safe p.instruments) : M.Tot e (p.putSnapshot into d) fun r => AllSafe e safe r.1.instruments := by
  rw [allSafe] at hp
  refine .bind (ProcessorState.tot_putSnapshot he hc _ into d hp.1) fun r hr => .pure ?_
  rw [allSafe]
  exact ⟨hr, hp.2⟩

theorem Processor.tot_call (p : Processor σ L) (c : Call σ L) (hcall : c.Safe e safe) (hp : AllSafe e safe p.instruments) :
    M.Tot e (p.call c) fun r => AllSafe e safe r.1.instruments := by
  cases c with
  | process max st => exact .bind (tot_process he hc max hcall p hp) fun _ hr => .pure hr
  | snapshot into d => exact .bind (tot_putSnapshot he hc p into d hp) fun _ hr => .pure hr
  | addCockpit c => rw [allSafe] at hp; exact .pure (allSafe.mpr ⟨ProcessorState.safe_addCockpit hp.1 hcall, hp.2⟩)
  | addHandler c => rw [allSafe] at hp; exact .pure (allSafe.mpr ⟨ProcessorState.safe_addHandler hp.1 hcall, hp.2⟩)
  | addSnapshooter c => rw [allSafe] at hp; exact .pure (allSafe.mpr ⟨ProcessorState.safe_addSnapshooter hp.1 hcall, hp.2⟩)
  | setName n => exact .pure hp
  | setInactivityLimit n => exact .pure hp
  | setShowActivityState n => exact .pure hp

theorem Processor.tot_calls (cs : List (Call σ L)) (hcs : ∀ c ∈ cs, c.Safe e safe) (p : Processor σ L)
    (hp : AllSafe e safe p.instruments) : M.Tot e (p.calls cs) fun r => AllSafe e safe r.1.instruments := by
  induction cs generalizing p with
  | nil => exact .pure hp
  | cons c cs ih =>
    rw [List.forall_mem_cons] at hcs
    exact .bind (tot_call he hc p c hcs.1 hp) fun r hr => .bind (ih hcs.2 _ hr) fun r hr => .pure hr

end

/-! ## Mounts -/

theorem MountHead.ok_afterRun (h : MountHead) (o : Outcome) : M.Ok e (h.afterRun o) :=
  .ite (.bind .now fun _ => .pure _) (.pure _)

section
variable [DecidableEq L] [Custom σ L] [CustomProcessor σ]

mutual
theorem Node.tot_process (he : e.profile = .release) (hc : CustomSafe L e safe) (hcp : CustomProcessorSafe e safe)
    (max : Nat) {st : Strategy} (hst : st.Safe e) (n : Node σ L)
    (hn : AllSafe e safe n.instruments) : M.Tot e (n.process max st) fun r => AllSafe e safe r.1.instruments := by
  match n with
  | .processor p =>
    unfold Node.process
    refine .bind (p.tot_process he hc max hst (by simpa only [Node.instruments] using hn)) fun r hr => .pure ?_
    simpa only [Node.instruments] using hr
  | .mount h ns ss =>
    simp only [Node.instruments, AllSafe.append] at hn
    unfold Node.process
    refine .bind (tot_processNodes he hc hcp max hst ns hn.1) fun r hr => .okBind (MountHead.ok_afterRun _ _) fun _ => .pure ?_
    simp only [Node.instruments, AllSafe.append]
    exact ⟨hr, hn.2⟩
  | .attached h ns ss [] =>
    simp only [Node.instruments, AllSafe.append] at hn
    unfold Node.process
    refine .bind (tot_processNodes he hc hcp max hst ns hn.1) fun r hr => .okBind (MountHead.ok_afterRun _ _) fun _ => .pure ?_
    simp only [Node.instruments, AllSafe.append]
    exact ⟨hr, hn.2⟩
  | .attached h ns ss (⟨ps, ss', closed⟩ :: inbox) =>
    simp only [Node.instruments, instrumentsOfInbox, AllSafe.append] at hn
    unfold Node.process
    refine .bind (tot_processNodes he hc hcp max hst ns hn.1) fun r hr =>
      .bind (tot_processNodes he hc hcp max hst ps hn.2.2.1) fun r' hr' => .okBind (MountHead.ok_afterRun _ _) fun _ => .pure ?_
    simp only [Node.instruments, AllSafe.append]
    refine ⟨?_, ?_, ?_⟩
    · rw [AllSafe.nodes] at hr hr' ⊢
      intro n hn
      rcases List.mem_append.mp hn with hn | hn
      · exact hr n hn
      · exact hr' n hn
    · obtain ⟨-, h1, -, h2, -⟩ := hn
      rw [AllSafe.snapshooters] at h1 h2 ⊢
      intro s hs
      rcases List.mem_append.mp hs with hs | hs
      · exact h1 s hs
      · exact h2 s hs
    · split
      · simp only [instrumentsOfInbox]; exact AllSafe.nil
      · exact hn.2.2.2.2
  | .driver as => unfold Node.process; exact .pure (by simp only [Node.instruments]; exact AllSafe.nil)
  | .custom s =>
    simp only [Node.instruments, AllSafe.single, Instrument.Safe] at hn
    unfold Node.process
    refine .bind (P := fun r : σ × Outcome => safe r.1) ?_ fun r hr => .pure ?_
    · intro k
      obtain ⟨s', o, k', h1, h2⟩ := hcp.process s max st k hn
      exact ⟨(s', o), k', h1, h2⟩
    · simpa only [Node.instruments, AllSafe.single, Instrument.Safe] using hr

theorem tot_processNodes (he : e.profile = .release) (hc : CustomSafe L e safe) (hcp : CustomProcessorSafe e safe)
    (max : Nat) {st : Strategy} (hst : st.Safe e) (ns : List (Node σ L)) (hn : AllSafe e safe (instrumentsOfNodes ns)) :
    M.Tot e (processNodes max st ns) fun r => AllSafe e safe (instrumentsOfNodes r.1) := by
  match ns with
  | [] => unfold processNodes; exact .pure hn
  | n :: ns =>
    simp only [instrumentsOfNodes, AllSafe.append] at hn
    unfold processNodes
    refine .bind (n.tot_process he hc hcp max hst hn.1) fun r hr =>
      .bind (tot_processNodes he hc hcp max hst ns hn.2) fun r' hr' => .pure ?_
    simp only [instrumentsOfNodes, AllSafe.append]
    exact ⟨hr, hr'⟩
end

omit [DecidableEq L] in
mutual
theorem Node.tot_putSnapshot (he : e.profile = .release) (hc : CustomSafe L e safe) (hcp : CustomProcessorSafe e safe)
    (d : Bool) (n : Node σ L) (into : Snapshot) (hn : AllSafe e safe n.instruments) :
    M.Tot e (n.putSnapshot d into) fun r => AllSafe e safe r.1.instruments := by
  match n with
  | .processor p =>
    unfold Node.putSnapshot
    refine .bind (p.tot_putSnapshot he hc into d (by simpa only [Node.instruments] using hn)) fun r hr => .pure ?_
    simpa only [Node.instruments] using hr
  | .mount h ns ss =>
    unfold Node.putSnapshot
    refine .okBind (h.activity.ok_putFlags _) fun g => .ite (fun _ => ?_) fun _ => .pure hn
    simp only [Node.instruments, AllSafe.append] at hn
    refine .bind (tot_putNodes he hc hcp d ns _ hn.1) fun r hr => .bind (tot_putSnapshooters he hc d ss _ hn.2) fun r' hr' => .pure ?_
    simp only [Node.instruments, AllSafe.append]
    exact ⟨hr, hr'⟩
  | .attached h ns ss inbox =>
    unfold Node.putSnapshot
    refine .okBind (h.activity.ok_putFlags _) fun g => .ite (fun _ => ?_) fun _ => .pure hn
    simp only [Node.instruments, AllSafe.append] at hn
    refine .bind (tot_putNodes he hc hcp d ns _ hn.1) fun r hr => .bind (tot_putSnapshooters he hc d ss _ hn.2.1) fun r' hr' => .pure ?_
    simp only [Node.instruments, AllSafe.append]
    exact ⟨hr, hr', hn.2.2⟩
  | .driver as => unfold Node.putSnapshot; exact .pure (by simp only [Node.instruments]; exact AllSafe.nil)
  | .custom s =>
    simp only [Node.instruments, AllSafe.single, Instrument.Safe] at hn
    unfold Node.putSnapshot
    refine .bind (P := fun r : σ × Snapshot => safe r.1) ?_ fun r hr => .pure ?_
    · intro k
      obtain ⟨s', o, k', h1, h2⟩ := hcp.putSnapshot s into d k hn
      exact ⟨(s', o), k', h1, h2⟩
    · simpa only [Node.instruments, AllSafe.single, Instrument.Safe] using hr

theorem tot_putNodes (he : e.profile = .release) (hc : CustomSafe L e safe) (hcp : CustomProcessorSafe e safe)
    (d : Bool) (ns : List (Node σ L)) (into : Snapshot) (hn : AllSafe e safe (instrumentsOfNodes ns)) :
    M.Tot e (putNodes d ns into) fun r => AllSafe e safe (instrumentsOfNodes r.1) := by
  match ns with
  | [] => unfold putNodes; exact .pure hn
  | n :: ns =>
    simp only [instrumentsOfNodes, AllSafe.append] at hn
    unfold putNodes
    refine .bind (n.tot_putSnapshot he hc hcp d into hn.1) fun r hr => .bind (tot_putNodes he hc hcp d ns _ hn.2) fun r' hr' => .pure ?_
    simp only [instrumentsOfNodes, AllSafe.append]
    exact ⟨hr, hr'⟩
end

theorem Node.tot_calls (he : e.profile = .release) (hc : CustomSafe L e safe) (hcp : CustomProcessorSafe e safe)
    (cs : List NodeCall) (hcs : ∀ c ∈ cs, c.Safe e) (n : Node σ L) (hn : AllSafe e safe n.instruments) :
    M.Tot e (n.calls cs) fun r => AllSafe e safe r.1.instruments := by
  induction cs generalizing n with
  | nil => exact .pure hn
  | cons c cs ih =>
    rw [List.forall_mem_cons] at hcs
    cases c with
    | process max st =>
      exact .bind (n.tot_process he hc hcp max hcs.1 hn) fun r hr => .bind (ih hcs.2 _ hr) fun r hr => .pure hr
    | snapshot into d =>
      exact .bind (n.tot_putSnapshot he hc hcp d into hn) fun r hr => .bind (ih hcs.2 _ hr) fun r hr => .pure hr
end

/-! ## Drivers -/

/-- The metrics of a driver are in order. -/
structure DriverInstruments.Good (e : Env) (i : DriverInstruments) : Prop where
  enqueued : i.enqueued.Good
  ratio : i.ratio.Good
  dropped : Fits e i.droppedAlarm.switchOffAfter
  inactivity : Fits e i.inactivityAlarm.ifNotHappenedWithin

theorem Gauge.tot_setTracking {g : Gauge} (hg : g.Good) (n : Nat) : M.Tot e (g.setTracking n) Gauge.Good := by
  refine .ite (fun h => ?_) fun _ => .pure hg
  refine .bind (P := SecondsBuckets.Good) ?_ fun b hb => .pure ?_
  · intro k
    refine ⟨{ buckets := List.replicate n default, currentTime := e.clock k, currentIdx := n - 1 }, k + 1, ?_, ?_⟩
    · simp only [SecondsBuckets.new, SecondsBuckets.initialized]
      rw [if_neg (by simp [h])]
      simp [M.run_bind]
    · simp [SecondsBuckets.Good]; omega
  · intro r hr; cases hr; exact hb

theorem M.Ok.envOnly : M.Ok e M.env := fun k => ⟨e, k, rfl⟩

theorem Histogram.ok_new (n : String) : M.Ok e (Histogram.new n) := .bind .now fun _ => .pure _

theorem ok_asSecsF64 (n : Nat) : M.Ok e (asSecsF64 n) := .envBind (.pure _)

section
variable (h60 : Fits e (60 * nanosPerSec))
include h60

theorem DriverInstruments.tot_new : M.Tot e DriverInstruments.new (DriverInstruments.Good e) := by
  unfold DriverInstruments.new
  refine .okBind (Meter.ok_new _) fun _ => .okBind (Histogram.ok_new _) fun _ => .okBind (Meter.ok_new _) fun _ =>
    .okBind (Histogram.ok_new _) fun _ => .okBind (Meter.ok_new _) fun _ => .okBind (Histogram.ok_new _) fun _ =>
    .bind (Gauge.tot_setTracking (by intro _ h; cases h) _) fun g hg => .okBind (Meter.ok_new _) fun _ => .okBind (Meter.ok_new _) fun _ =>
    .okBind (Histogram.ok_new _) fun _ =>
    .bind (P := fun x => Fits e x.ifNotHappenedWithin) ?_ fun x hx => .okBind (Histogram.ok_new _) fun _ =>
    .bind (Gauge.tot_setTracking (by intro _ h; cases h) _) fun g' hg' => .pure ⟨hg, hg', h60, hx⟩
  exact .okBind .now fun _ => .pure h60

theorem LoopState.tot_new (name : Option String) (descr : Descr) (strategy : Strategy) (b : Bool) :
    M.Tot e (LoopState.new (σ := σ) (L := L) name descr strategy b) fun l =>
      (∀ i, l.metrics = some i → i.Good e) ∧ l.strategy = strategy ∧ l.processors = [] ∧ l.snapshooters = [] := by
  unfold LoopState.new
  have rest : ∀ m : Option DriverInstruments, (∀ i, m = some i → i.Good e) → M.Tot e (do
      let now ← M.now
      let lastOutcomeLogged ← subDur now (60 * nanosPerSec)
      return { name, descr, metrics := m, lastOutcomeLogged, strategy } : M (LoopState σ L)) fun l =>
      (∀ i, l.metrics = some i → i.Good e) ∧ l.strategy = strategy ∧ l.processors = [] ∧ l.snapshooters = [] := by
    intro m hm
    rw [← bind_assoc]
    exact .okBind (.subDurNow h60) fun _ => .pure ⟨hm, rfl, rfl, rfl⟩
  refine .ite (fun _ => ?_) fun _ => .bind (.pure (P := fun m => m = none) rfl) fun m hm => rest m fun i hi => by rw [hm] at hi; cases hi
  rw [map_eq_pure_bind, bind_assoc]
  exact .bind (DriverInstruments.tot_new h60) fun i hi => .bind (.pure (P := fun m => m = some i) rfl) fun m hm =>
    rest m fun j hj => by rw [hm] at hj; cases hj; exact hi
end

section
variable (he : e.profile = .release)
include he

theorem ok_ofDuration (n : Nat) : M.Ok e (ObservedValue.ofDuration n) :=
  .bind (.arithU64 he _) fun _ => .bind (.arithU64 he _) fun _ => .pure _

namespace DriverInstruments
variable {i : DriverInstruments}

theorem tot_notePass (hi : i.Good e) (a b : Int) : M.Tot e (i.notePass a b) (Good e) :=
  .okBind (Meter.ok_update he _ _) fun _ => .okBind (ok_ofDuration he _) fun _ => .okBind (Histogram.ok_update he _ _) fun _ =>
    .pure ⟨hi.1, hi.2, hi.3, hi.4⟩

theorem tot_noteProcessed (hi : i.Good e) (a : Int) (n : Nat) : M.Tot e (i.noteProcessed a n) (Good e) :=
  .ite (fun _ => .okBind (Meter.ok_update he _ _) fun _ => .okBind (Histogram.ok_update he _ _) fun _ =>
    .pure ⟨hi.1, hi.2, hi.3, hi.4⟩) fun _ => .pure hi

theorem tot_noteEnqueued (hi : i.Good e) (a : Int) (n : Nat) : M.Tot e (i.noteEnqueued a n) (Good e) :=
  .bind (Gauge.tot_update he hi.1 _) fun _ hr => .pure ⟨hr, hi.2, hi.3, hi.4⟩

theorem tot_noteDropped (hi : i.Good e) (a : Int) (n : Nat) : M.Tot e (i.noteDropped a n) (Good e) :=
  .ite (fun _ => .okBind (Meter.ok_update he _ _) fun _ => .okBind (Histogram.ok_update he _ _) fun _ =>
    .bind (StaircaseTimer.tot_update hi.3 _) fun _ hr => .pure ⟨hi.1, hi.2, hr, hi.4⟩) fun _ => .pure hi

theorem tot_noteUpdated (hi : i.Good e) (a : Int) (n : Nat) : M.Tot e (i.noteUpdated a n) (Good e) :=
  .ite (fun _ => .okBind (Meter.ok_update he _ _) fun _ => .pure ⟨hi.1, hi.2, hi.3, hi.4⟩) fun _ => .pure hi

omit he in
theorem tot_noteActivity (hi : i.Good e) (a : Int) : M.Tot e (i.noteActivity a) (Good e) := by
  have hu : M.Tot e (i.inactivityAlarm.update (.observation a)) fun r => Fits e r.1.ifNotHappenedWithin :=
    .okBind .now fun _ => .pure hi.4
  exact .bind hu fun _ hr => .pure ⟨hi.1, hi.2, hi.3, hr⟩

theorem tot_updatePostCollection (hi : i.Good e) (o : Outcome) (t : Int) : M.Tot e (i.updatePostCollection o t) (Good e) :=
  .okBind .now fun _ => .bind (tot_notePass he hi _ _) fun _ hi => .bind (tot_noteProcessed he hi _ _) fun _ hi =>
    .bind (tot_noteEnqueued he hi _ _) fun _ hi => .bind (tot_noteDropped he hi _ _) fun _ hi =>
    .bind (tot_noteUpdated he hi _ _) fun _ hi => tot_noteActivity hi _

theorem tot_updatePostSnapshot (hi : i.Good e) (t : Int) : M.Tot e (i.updatePostSnapshot t) (Good e) :=
  .okBind .now fun _ => .okBind (Meter.ok_update he _ _) fun _ => .okBind (ok_ofDuration he _) fun _ =>
    .okBind (Histogram.ok_update he _ _) fun _ => .pure ⟨hi.1, hi.2, hi.3, hi.4⟩

theorem tot_updateRunRatio (hi : i.Good e) (q : Rat) : M.Tot e (i.updateRunRatio q) (Good e) := by
  refine .okBind .envOnly fun _ => .okBind .now fun _ => .okBind (Histogram.ok_update he _ _) fun _ =>
    .bind (Gauge.tot_update he hi.2 _) fun _ hr => .pure ⟨hi.1, hr, hi.3, hi.4⟩

theorem tot_putSnapshot (hi : i.Good e) (into : Snapshot) (d : Bool) :
    M.Tot e (i.putSnapshot into d) fun r => r.1.Good e :=
  .okBind (Meter.ok_putSnapshot he _ _ _) fun _ => .okBind (Histogram.ok_putSnapshot _ _ _) fun _ =>
    .okBind (Meter.ok_putSnapshot he _ _ _) fun _ => .okBind (Histogram.ok_putSnapshot _ _ _) fun _ =>
    .okBind (Meter.ok_putSnapshot he _ _ _) fun _ => .okBind (Histogram.ok_putSnapshot _ _ _) fun _ =>
    .bind (Gauge.tot_putSnapshot he hi.1 _ _) fun _ h1 => .okBind (Meter.ok_putSnapshot he _ _ _) fun _ =>
    .okBind (Meter.ok_putSnapshot he _ _ _) fun _ => .okBind (Histogram.ok_putSnapshot _ _ _) fun _ =>
    .okBind (StaircaseTimer.ok_putSnapshot _ _ _) fun _ => .okBind (NonOccurrenceIndicator.ok_putSnapshot hi.4 _ _) fun _ =>
    .bind (Gauge.tot_putSnapshot he hi.2 _ _) fun _ h2 => .okBind (Histogram.ok_putSnapshot _ _ _) fun _ =>
    .pure ⟨h1, h2, hi.3, hi.4⟩

end DriverInstruments
end

/-- Everything in the loop of a driver is safe. -/
structure LoopState.Good (e : Env) (safe : σ → Prop) (l : LoopState σ L) : Prop where
  metrics : ∀ i, l.metrics = some i → i.Good e
  processors : AllSafe e safe (instrumentsOfNodes l.processors)
  snapshooters : AllSafe e safe (instrumentsOfSnapshooters l.snapshooters)
  strategy : l.strategy.Safe e

section
variable [DecidableEq L] [Custom σ L] [CustomProcessor σ] (he : e.profile = .release) (hc : CustomSafe L e safe)
  (hcp : CustomProcessorSafe e safe)
include he hc hcp

omit [DecidableEq L] in
theorem LoopState.tot_addSnapshotValues {l : LoopState σ L} (hl : l.Good e safe) (into : Snapshot) (d : Bool) (t : Int) :
    M.Tot e (l.addSnapshotValues into d t) fun r => r.1.Good e safe := by
  refine .bind (tot_putNodes he hc hcp d _ _ hl.2) fun r hr => .bind (tot_putSnapshooters he hc d _ _ hl.3) fun r' hr' => ?_
  cases hm : l.metrics with
  | none => exact .pure ⟨fun i hi => (nomatch hi), hr, hr', hl.4⟩
  | some i =>
    exact .bind (DriverInstruments.tot_updatePostSnapshot he (hl.1 i hm) _) fun i hi =>
      .bind (DriverInstruments.tot_putSnapshot he hi _ _) fun i hi =>
        .pure ⟨fun j hj => by cases hj; exact hi, hr, hr', hl.4⟩

omit [DecidableEq L] in
theorem LoopState.tot_makeSnapshot {l : LoopState σ L} (hl : l.Good e safe) (d : Bool) :
    M.Tot e (l.makeSnapshot d) fun r => r.1.Good e safe := by
  refine .okBind .now fun t => ?_
  cases hn : l.name with
  | none => exact LoopState.tot_addSnapshotValues he hc hcp hl _ _ _
  | some n => exact .bind (LoopState.tot_addSnapshotValues he hc hcp hl _ _ _) fun r hr => .pure hr

omit [DecidableEq L] in
theorem LoopState.tot_handle {l : LoopState σ L} (hl : l.Good e safe) (m : DriverMsg σ L) (hm : m.Safe e safe) :
    M.Tot e (l.handle m) fun r => r.1.Good e safe ∧ (∀ id d, m = .getSnapshot id d → r.2 ≠ none) := by
  cases m with
  | addProcessor n =>
    refine .pure ⟨⟨hl.1, ?_, hl.3, hl.4⟩, fun _ _ h => (nomatch h)⟩
    have := hl.2
    rw [AllSafe.nodes] at this ⊢
    intro x hx
    rcases List.mem_append.mp hx with hx | hx
    · exact this x hx
    · rw [List.mem_singleton.mp hx]; exact hm
  | addSnapshooter n =>
    refine .pure ⟨⟨hl.1, hl.2, ?_, hl.4⟩, fun _ _ h => (nomatch h)⟩
    have := hl.3
    rw [AllSafe.snapshooters] at this ⊢
    intro x hx
    rcases List.mem_append.mp hx with hx | hx
    · exact this x hx
    · rw [List.mem_singleton.mp hx]; exact hm
  | getSnapshot id d =>
    exact .bind (LoopState.tot_makeSnapshot he hc hcp hl d) fun r hr => .pure ⟨hr, fun _ _ _ h => (nomatch h)⟩
  | setStrategy s => exact .pure ⟨⟨hl.1, hl.2, hl.3, hm⟩, fun _ _ h => (nomatch h)⟩
  | pause => exact .pure ⟨⟨hl.1, hl.2, hl.3, hl.4⟩, fun _ _ h => (nomatch h)⟩
  | resume => exact .pure ⟨⟨hl.1, hl.2, hl.3, hl.4⟩, fun _ _ h => (nomatch h)⟩

omit [DecidableEq L] in
theorem LoopState.tot_begin {l : LoopState σ L} (hl : l.Good e safe) (m : Option (DriverMsg σ L))
    (hm : ∀ x, m = some x → x.Safe e safe) :
    M.Tot e (l.begin m) fun r => r.1.Good e safe ∧ (∀ id d, m = some (.getSnapshot id d) → r.2.2 ≠ none) := by
  refine .okBind .now fun t => ?_
  cases m with
  | none => exact .pure ⟨hl, fun _ _ h => (nomatch h)⟩
  | some m =>
    exact .bind (LoopState.tot_handle he hc hcp hl m (hm m rfl)) fun r hr => .pure ⟨hr.1, fun id d h => hr.2 id d (by cases h; rfl)⟩

omit he hc hcp [DecidableEq L] [Custom σ L] [CustomProcessor σ] in
theorem LoopState.tot_logDropped {l : LoopState σ L} (hl : l.Good e safe) (n : Nat) :
    M.Tot e (l.logDropped n) (LoopState.Good e safe) :=
  .ite (fun _ => .okBind .now fun _ => .ite (fun _ => .okBind .readings fun _ => .okBind .now fun _ => .pure ⟨hl.1, hl.2, hl.3, hl.4⟩)
    fun _ => .pure ⟨hl.1, hl.2, hl.3, hl.4⟩) fun _ => .pure ⟨hl.1, hl.2, hl.3, hl.4⟩

omit hc hcp [DecidableEq L] [Custom σ L] [CustomProcessor σ] in
theorem LoopState.tot_noteRun {l : LoopState σ L} (hl : l.Good e safe) (o : Outcome) (t : Int) :
    M.Tot e (l.noteRun o t) (LoopState.Good e safe) := by
  unfold LoopState.noteRun
  cases hm : l.metrics with
  | none => exact .pure hl
  | some i =>
    exact .bind (DriverInstruments.tot_updatePostCollection he (hl.1 i hm) _ _) fun i hi =>
      .pure ⟨fun j hj => by cases hj; exact hi, hl.2, hl.3, hl.4⟩

omit hc hcp [DecidableEq L] [Custom σ L] [CustomProcessor σ] in
theorem LoopState.tot_reportElapsed {l : LoopState σ L} (hl : l.Good e safe) (t : Int) (n : Nat) :
    M.Tot e (l.reportElapsed t n) (LoopState.Good e safe) := by
  unfold LoopState.reportElapsed
  cases hm : l.metrics with
  | none => exact .pure hl
  | some i =>
    exact .okBind .now fun _ => .okBind (ok_asSecsF64 _) fun _ => .okBind (ok_asSecsF64 _) fun _ => .ite (fun _ =>
      .okBind .envOnly fun _ => .bind (DriverInstruments.tot_updateRunRatio he (hl.1 i hm) _) fun i hi =>
        .pure ⟨fun j hj => by cases hj; exact hi, hl.2, hl.3, hl.4⟩) fun _ => .pure hl

theorem LoopState.tot_work {l : LoopState σ L} (hl : l.Good e safe) (t : Int) :
    M.Tot e (l.work t) fun r => r.1.Good e safe ∧ (l.paused = false → r.2.1 ≠ none) := by
  refine .ite (fun hp => .okBind .readings fun _ => .pure ⟨hl, fun h => by rw [hp] at h; cases h⟩) fun _ => .okBind .now fun _ =>
    .bind (tot_processNodes he hc hcp _ hl.4 _ hl.2) fun r hr => .okBind .now fun _ =>
    .bind (tot_logDropped (l := { l with processors := r.1 }) ⟨hl.1, hr, hl.3, hl.4⟩ _) fun l hl =>
    .bind (tot_noteRun he hl _ _) fun l hl =>
    .ite (fun _ => .pure ⟨hl, fun _ h => (nomatch h)⟩) fun _ => .okBind .now fun _ => .okBind .readings fun _ =>
      .bind (tot_reportElapsed he hl _ _) fun l hl =>
      .pure ⟨hl, fun _ h => (nomatch h)⟩

omit [DecidableEq L] [Custom σ L] [CustomProcessor σ] he hc hcp in
theorem pending_poll {b : Bool} {r r' : Receiver (DriverMsg σ L)} {m : Option (DriverMsg σ L)} (h : pollDriver b r = (r', .go m)) :
    (∀ x ∈ r'.chan.pending, x ∈ r.chan.pending) ∧ ∀ x, m = some x → x ∈ r.chan.pending := by
  unfold pollDriver at h
  simp only at h
  split at h
  · cases h
  · split at h
    · rename_i heq
      cases h
      obtain ⟨h1, h2⟩ := Receiver.pending_tryRecv heq
      exact ⟨fun x hx => r.pending_wait x (h1 x hx), fun x hx => by cases hx; exact r.pending_wait _ (h2 _ rfl)⟩
    · rename_i heq
      cases h
      exact ⟨fun x hx => r.pending_wait x ((Receiver.pending_tryRecv heq).1 x hx), fun x hx => (nomatch hx)⟩
    · cases h

omit [DecidableEq L] [Custom σ L] [CustomProcessor σ] he hc hcp in
theorem poll_stop {b : Bool} {r r' : Receiver (DriverMsg σ L)} (h : pollDriver b r = (r', .stop)) : r'.chan.abandoned = true := by
  unfold pollDriver at h
  simp only at h
  split at h
  · rename_i hab
    cases h
    simp only [Bool.and_eq_true] at hab
    exact hab.1
  · split at h
    · cases h
    · cases h
    · rename_i heq
      cases h
      unfold Receiver.tryRecv at heq
      simp only at heq
      split at heq
      · cases heq
      · split at heq
        · rename_i hab
          cases heq
          exact hab
        · cases heq

/-- An iteration of a safe driver. -/
theorem safe_iterate {l : Loop σ L} (hl : l.state.Good e safe) (hp : ∀ m ∈ l.receiver.chan.pending, m.Safe e safe)
    {k k' : Nat} {t : DriverThread σ L} {i : Option (Iteration σ L)}
    (h : (DriverThread.running l).iterate e k = (t, i, k')) :
    (i = none ∧ ∃ c, t = .ended c ∧ c.abandoned = true) ∨
    ∃ l' x, t = .running l' ∧ i = some x ∧ l'.state.Good e safe ∧ (∀ m ∈ l'.receiver.chan.pending, m.Safe e safe) ∧
      (∀ id d, x.message = some (.getSnapshot id d) → x.answer ≠ none) ∧ (l'.state.paused = false → x.outcome ≠ none) := by
  cases iterates h with
  | stop hpoll => exact .inl ⟨rfl, _, rfl, poll_stop hpoll⟩
  | panicEarly hpoll hb =>
    obtain ⟨h1, h2⟩ := pending_poll hpoll
    obtain ⟨a, j, ha, -⟩ := LoopState.tot_begin he hc hcp hl _ (fun x hx => hp x (h2 x hx)) k
    rw [ha] at hb; cases hb
  | panicLate hpoll hb hw =>
    obtain ⟨h1, h2⟩ := pending_poll hpoll
    obtain ⟨a, j, ha, hg⟩ := LoopState.tot_begin he hc hcp hl _ (fun x hx => hp x (h2 x hx)) k
    rw [ha] at hb; cases hb
    obtain ⟨a, j, ha, -⟩ := LoopState.tot_work he hc hcp hg.1 _ k'
    rw [ha] at hw; cases hw
  | @done r m s started answer k₁ s' outcome rest k₂ hpoll hb hw =>
    obtain ⟨h1, h2⟩ := pending_poll hpoll
    obtain ⟨a, j, ha, hg⟩ := LoopState.tot_begin he hc hcp hl _ (fun x hx => hp x (h2 x hx)) k
    rw [ha] at hb; cases hb
    obtain ⟨a, j, ha, hg'⟩ := LoopState.tot_work he hc hcp hg.1 started k₁
    have hpaused := work_state hw
    rw [ha] at hw; cases hw
    exact .inr ⟨_, _, rfl, rfl, hg'.1, fun m hm => hp m (h1 m hm), hg.2, fun hp => hg'.2 (by
      rcases hpaused with ⟨_, _, h⟩ | ⟨h, _⟩
      · rw [← h]; exact hp
      · exact h)⟩

/-- The life of a safe driver. -/
theorem DriverLife.staysSafe {k k' : Nat} {t t' : DriverThread σ L} {log : List (Iteration σ L)} (h : DriverLife e k t log k' t')
    (ht : ∀ l, t = .running l → l.state.Good e safe ∧ ∀ m ∈ l.receiver.chan.pending, m.Safe e safe)
    (hended : ∀ c, t = .ended c → c.abandoned = true) :
    (∀ c, t' = .ended c → c.abandoned = true) ∧
    (∀ l, t' = .running l → l.state.Good e safe ∧ ∀ m ∈ l.receiver.chan.pending, m.Safe e safe) ∧
    ∀ x ∈ log, ∀ id d, x.message = some (.getSnapshot id d) → x.answer ≠ none := by
  induction h with
  | nil hk => exact ⟨hended, ht, fun _ h => (nomatch h)⟩
  | @iteration k k₁ k₂ k' t t₁ t' i log hk hi _ ih =>
    cases t with
    | ended c => have := (iterate_ended hi).2.1; simp at this
    | running l =>
      obtain ⟨h1, h2⟩ := ht l rfl
      rcases safe_iterate he hc hcp h1 h2 hi with ⟨h, _⟩ | ⟨l', x, rfl, hx, g1, g2, g3, -⟩
      · cases h
      · cases hx
        obtain ⟨a, b, c⟩ := ih (by intro l hl; cases hl; exact ⟨g1, g2⟩) (by intro c hc; cases hc)
        exact ⟨a, b, fun x hx => by
          rcases List.mem_cons.mp hx with rfl | hx
          · exact g3
          · exact c x hx⟩
  | @over k k₁ k₂ k' t t₁ t' log hk hi _ ih =>
    cases t with
    | ended c =>
      obtain ⟨rfl, -, -⟩ := iterate_ended hi
      exact ih ht hended
    | running l =>
      obtain ⟨h1, h2⟩ := ht l rfl
      rcases safe_iterate he hc hcp h1 h2 hi with ⟨_, c, rfl, hc⟩ | ⟨l', x, rfl, hx, g1, g2, g3, -⟩
      · exact ih (by intro l hl; cases hl) (by intro c hc; cases hc; assumption)
      · cases hx
  | others _ ih =>
    refine ih (by intro l hl; cases hl) ?_
    intro c hc
    cases hc
    exact (congrArg Channel.abandoned (Channel.abandoned_run _ _ (hended _ rfl))).trans (hended _ rfl)

end

end Metrix
