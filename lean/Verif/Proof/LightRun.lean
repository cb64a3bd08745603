import Verif.Proof.LightTree
import Verif.Proof.SafeRun

/-! Processors, mounts and drivers within their limits do not panic, in any build. -/

namespace Metrix
variable {σ L μ : Type} {e : Env} {safe : σ → Prop} {peak : Nat} {l l' : Load}

/-! ## What is still going to come -/

theorem subperm_append {A : Type} {a b c d : List A} (h : a.Subperm b) (h' : c.Subperm d) : (a ++ c).Subperm (b ++ d) := by
  obtain ⟨x, hx, hs⟩ := h
  obtain ⟨y, hy, hs'⟩ := h'
  exact ⟨x ++ y, hx.append hy, hs.append hs'⟩

theorem flatMap_set_subperm {A B : Type} (f : A → List B) {xs : List A} {i : Nat} {x : A} (hx : xs[i]? = some x) (y : A) (extra : List B)
    (h : (extra ++ f y).Subperm (f x)) : (extra ++ (xs.set i y).flatMap f).Subperm (xs.flatMap f) := by
  induction xs generalizing i with
  | nil => simp at hx
  | cons a as ih =>
    cases i with
    | zero =>
      simp only [List.getElem?_cons_zero, Option.some.injEq] at hx
      subst hx
      simp only [List.set_cons_zero, List.flatMap_cons, ← List.append_assoc]
      exact subperm_append h (List.Subperm.refl _)
    | succ i =>
      simp only [List.getElem?_cons_succ] at hx
      have := ih hx
      simp only [List.set_cons_succ, List.flatMap_cons]
      have e1 : (extra ++ (f a ++ (as.set i y).flatMap f)).Perm (f a ++ (extra ++ (as.set i y).flatMap f)) := by
        rw [← List.append_assoc, ← List.append_assoc]
        exact List.perm_append_comm.append_right _
      exact e1.subperm.trans (subperm_append (List.Subperm.refl _) this)

/-- No message is sent twice. -/
theorem Channel.subperm_step (c : Channel μ) (t : Nat) : (c.step t).pending.Subperm c.pending := by
  have hs := c.step_spec t
  generalize c.step t = c' at hs
  cases hs with
  | nothing => exact List.Subperm.refl _
  | drop th hth hh htd hd =>
    simp only [pending]
    exact subperm_append (List.Subperm.refl _)
      (flatMap_set_subperm (fun th : SendThread μ => th.todo) hth { th with holds := false } [] (List.Subperm.refl _))
  | accept th x rest hth hh htd hr hf =>
    simp only [pending, List.map_append, List.append_assoc]
    exact subperm_append (List.Subperm.refl _) (flatMap_set_subperm (fun th : SendThread μ => th.todo) hth _ [x] (by rw [htd]; exact List.Subperm.refl _))
  | lose th x rest hth hh htd hr =>
    simp only [pending]
    exact subperm_append (List.Subperm.refl _) (flatMap_set_subperm (fun th : SendThread μ => th.todo) hth _ []
      (by simp only [List.nil_append, htd]; exact (List.sublist_cons_self _ _).subperm))

theorem Channel.subperm_run (c : Channel μ) (s : List Nat) : (c.run s).pending.Subperm c.pending := by
  induction s generalizing c with
  | nil => exact List.Subperm.refl _
  | cons t s ih => exact (ih _).trans (c.subperm_step t)

theorem Receiver.subperm_wait (r : Receiver μ) : r.wait.chan.pending.Subperm r.chan.pending := by
  unfold Receiver.wait
  split
  · exact List.Subperm.refl _
  · exact r.chan.subperm_run _

/-- What is received is not pending any more. -/
theorem Receiver.subperm_tryRecv {r r' : Receiver μ} {x : TryRecv μ} (h : r.tryRecv = (r', x)) :
    r'.chan.pending.Subperm r.chan.pending ∧ ∀ m, x = .ok m → (m :: r'.chan.pending).Subperm r.chan.pending := by
  unfold Receiver.tryRecv at h
  simp only at h
  split at h
  · rename_i u m q hq
    cases h
    have key : ∀ c : Channel μ, c.queue = (u, m) :: q → (m :: c.take.pending).Subperm c.pending := by
      intro c hc
      simp only [Channel.take, hc, Channel.pending, List.map_cons, List.cons_append]
      exact List.Subperm.refl _
    refine ⟨?_, fun m' hm' => ?_⟩
    · exact ((List.sublist_cons_self m _).subperm.trans (key _ hq)).trans r.subperm_wait
    · cases hm'; exact (key _ hq).trans r.subperm_wait
  · cases h
    refine ⟨r.subperm_wait, fun m hm => ?_⟩
    split at hm <;> cases hm

theorem loadOf_perm {a b : List (Observation L)} (h : a.Perm b) : loadOf a = loadOf b := by
  induction h with
  | nil => rfl
  | cons x _ ih => show x.load + _ = x.load + _; rw [show List.foldr _ _ _ = _ from ih]; rfl
  | swap x y l =>
    show y.load + (x.load + loadOf l) = x.load + (y.load + loadOf l)
    rw [← Load.add_assoc, ← Load.add_assoc, Load.add_comm y.load]
  | trans _ _ h1 h2 => exact h1.trans h2

theorem loadOf_sublist {a b : List (Observation L)} (h : a.Sublist b) : loadOf a ≤ loadOf b := by
  induction h with
  | slnil => exact Load.le_refl _
  | @cons a b x _ ih =>
    show loadOf a ≤ x.load + loadOf b
    rw [Load.add_comm]
    exact Load.le_trans ih (Load.le_add _ _)
  | @cons_cons a b x _ ih => exact Load.add_le_add (Load.le_refl _) ih

/-- The observation in a message. -/
def Message.load (m : Message σ L) : Load := loadOf m.observation?.toList

theorem loadOf_cons (m : Message σ L) (ms : List (Message σ L)) :
    loadOf ((m :: ms).filterMap Message.observation?) = m.load + loadOf (ms.filterMap Message.observation?) := by
  cases m <;> first | (simp only [Message.load, Message.observation?, List.filterMap_cons, Option.toList]
                       show _ = 0 + _
                       rw [Load.zero_add]) | skip
  rename_i o
  show o.load + _ = (o.load + 0) + _
  rw [Load.add_zero]; rfl

theorem loadOf_subperm {a b : List (Message σ L)} (h : a.Subperm b) :
    loadOf (a.filterMap Message.observation?) ≤ loadOf (b.filterMap Message.observation?) := by
  obtain ⟨c, hp, hs⟩ := h
  rw [← loadOf_perm (hp.filterMap _)]
  exact loadOf_sublist (hs.filterMap _)

/-! ## Lists of instruments -/

theorem AllWithin.panels {ps : List (Panel σ L)} :
    AllWithin e safe peak l (partsOfPanels ps) ↔ ∀ p ∈ ps, AllWithin e safe peak l p.parts := by
  induction ps with
  | nil => simp [partsOfPanels, AllWithin.nil]
  | cons p ps ih => simp only [partsOfPanels, AllWithin.append, ih, List.forall_mem_cons]

theorem AllWithin.handlers {hs : List (Handler σ L)} :
    AllWithin e safe peak l (partsOfHandlers hs) ↔ ∀ h ∈ hs, AllWithin e safe peak l h.parts := by
  induction hs with
  | nil => simp [partsOfHandlers, AllWithin.nil]
  | cons p ps ih => simp only [partsOfHandlers, AllWithin.append, ih, List.forall_mem_cons]

theorem AllWithin.snapshooters {ss : List (Snapshooter σ L)} :
    AllWithin e safe peak l (partsOfSnapshooters ss) ↔ ∀ s ∈ ss, AllWithin e safe peak l s.parts := by
  induction ss with
  | nil => simp [partsOfSnapshooters, AllWithin.nil]
  | cons p ps ih => simp only [partsOfSnapshooters, AllWithin.append, ih, List.forall_mem_cons]

theorem AllWithin.cockpits {cs : List (Cockpit σ L)} :
    AllWithin e safe peak l (partsOfCockpits cs) ↔ ∀ c ∈ cs, AllWithin e safe peak l c.parts := by
  induction cs with
  | nil => simp [partsOfCockpits, AllWithin.nil]
  | cons p ps ih => simp only [partsOfCockpits, AllWithin.append, ih, List.forall_mem_cons]

/-! ## Processors -/

/-- The parts of a processor are safe. -/
theorem ProcessorState.allWithin {s : ProcessorState σ L} : AllWithin e safe peak l s.parts ↔
    AllWithin e safe peak l (partsOfCockpits s.cockpits) ∧ AllWithin e safe peak l (partsOfHandlers s.handlers) ∧
      AllWithin e safe peak l (partsOfSnapshooters s.snapshooters) := by
  simp only [ProcessorState.parts, AllWithin.append]

theorem Cockpit.within_addPanel {c : Cockpit σ L} {p : Panel σ L} (hc : AllWithin e safe peak l c.parts)
    (hp : AllWithin e safe peak l p.parts) : AllWithin e safe peak l (c.addPanel p).parts := by
  have key : AllWithin e safe peak l ({ c with panels := c.panels ++ [p] } : Cockpit σ L).parts := by
    simp only [Cockpit.parts, AllWithin.append, AllWithin.panels, List.mem_append, List.mem_singleton] at hc ⊢
    refine ⟨fun q hq => ?_, hc.2⟩
    rcases hq with hq | rfl
    · exact hc.1 q hq
    · exact hp
  unfold Cockpit.addPanel
  split
  · split
    · exact hc
    · exact key
  · exact key

theorem Cockpit.within_removePanel {c : Cockpit σ L} (n : String) (hc : AllWithin e safe peak l c.parts) :
    AllWithin e safe peak l (c.removePanel n).parts := by
  simp only [Cockpit.removePanel, Cockpit.parts, AllWithin.append, AllWithin.panels] at hc ⊢
  exact ⟨fun q hq => hc.1 q (List.mem_of_mem_filter hq), hc.2⟩

theorem ProcessorState.within_modifyFirst {f : Cockpit σ L → Cockpit σ L} (n : String)
    (hf : ∀ c, AllWithin e safe peak l c.parts → AllWithin e safe peak l (f c).parts) {cs : List (Cockpit σ L)}
    (h : AllWithin e safe peak l (partsOfCockpits cs)) :
    AllWithin e safe peak l (partsOfCockpits (modifyFirst n f cs)) := by
  induction cs with
  | nil => exact h
  | cons c cs ih =>
    simp only [partsOfCockpits, AllWithin.append] at h
    unfold modifyFirst
    split
    · simp only [partsOfCockpits, AllWithin.append]; exact ⟨hf c h.1, h.2⟩
    · simp only [partsOfCockpits, AllWithin.append]; exact ⟨h.1, ih h.2⟩

theorem ProcessorState.within_addCockpit {s : ProcessorState σ L} {c : Cockpit σ L} (hs : AllWithin e safe peak l s.parts)
    (hc : AllWithin e safe peak l c.parts) : AllWithin e safe peak l (s.addCockpit c).parts := by
  have key : AllWithin e safe peak l ({ s with cockpits := s.cockpits ++ [c] } : ProcessorState σ L).parts := by
    simp only [allWithin, AllWithin.cockpits, List.mem_append, List.mem_singleton] at hs ⊢
    refine ⟨fun q hq => ?_, hs.2⟩
    rcases hq with hq | rfl
    · exact hs.1 q hq
    · exact hc
  unfold ProcessorState.addCockpit
  split
  · split
    · exact hs
    · exact key
  · exact key

theorem ProcessorState.within_addHandler {s : ProcessorState σ L} {x : Handler σ L} (hs : AllWithin e safe peak l s.parts)
    (hx : AllWithin e safe peak l x.parts) : AllWithin e safe peak l (s.addHandler x).parts := by
  simp only [ProcessorState.addHandler, allWithin, AllWithin.handlers, List.mem_append, List.mem_singleton] at hs ⊢
  refine ⟨hs.1, fun q hq => ?_, hs.2.2⟩
  rcases hq with hq | rfl
  · exact hs.2.1 q hq
  · exact hx

theorem ProcessorState.within_addSnapshooter {s : ProcessorState σ L} {x : Snapshooter σ L} (hs : AllWithin e safe peak l s.parts)
    (hx : AllWithin e safe peak l x.parts) : AllWithin e safe peak l (s.addSnapshooter x).parts := by
  simp only [ProcessorState.addSnapshooter, allWithin, AllWithin.snapshooters, List.mem_append, List.mem_singleton] at hs ⊢
  refine ⟨hs.1, hs.2.1, fun q hq => ?_⟩
  rcases hq with hq | rfl
  · exact hs.2.2 q hq
  · exact hx


section
variable [DecidableEq L] [Custom σ L] (hc : CustomSafe L e safe)
include hc

theorem within_handleCockpits (o : Observation L) (hS : (l + o.load).Small peak) (ho : o.AtMost peak) (cs : List (Cockpit σ L))
    (h : AllWithin e safe peak l (partsOfCockpits cs)) :
    M.Tot e (handleCockpits o cs) fun r => AllWithin e safe peak (l + o.load) (partsOfCockpits r.1) := by
  induction cs with
  | nil => exact .pure AllWithin.nil
  | cons c cs ih =>
    simp only [partsOfCockpits, AllWithin.append] at h
    refine .bind (c.within_handle hc o hS ho h.1) fun r hr => .bind (ih h.2) fun r' hr' => .pure ?_
    simp only [partsOfCockpits, AllWithin.append]
    exact ⟨hr, hr'⟩

theorem ProcessorState.within_receive (dec : Decider) (s : ProcessorState σ L) (t : Tally) (m : Message σ L)
    (hs : AllWithin e safe peak l s.parts) (hm : AllWithin e safe peak l m.parts) (hS : (l + m.load).Small peak)
    (ho : ∀ o, m.observation? = some o → o.AtMost peak) :
    M.Tot e (s.receive dec t m) fun r => AllWithin e safe peak (l + m.load) r.1.parts := by
  have stay : ∀ {ps : List (Tuned σ L)}, AllWithin e safe peak l ps → AllWithin e safe peak (l + m.load) ps :=
    fun h => h.mono (Load.le_add _ _)
  cases m with
  | observation o =>
    have e1 : (Message.observation o : Message σ L).load = o.load := by
      show o.load + 0 = _
      rw [Load.add_zero]
    rw [e1] at hS stay ⊢
    refine .ite (fun _ => ?_) fun _ => .pure (stay hs)
    rw [allWithin] at hs
    refine .bind (within_handleCockpits hc o hS (ho o rfl) _ hs.1) fun r hr =>
      .bind (within_handleHandlers hc o hS (ho o rfl) _ hs.2.1) fun r' hr' => .pure ?_
    rw [allWithin]
    exact ⟨hr, hr', stay hs.2.2⟩
  | addCockpit c => exact .pure (stay (within_addCockpit hs hm))
  | removeCockpit n =>
    refine .pure (stay ?_)
    simp only [ProcessorState.removeCockpit, allWithin, AllWithin.cockpits] at hs ⊢
    exact ⟨fun c hc => hs.1 c (List.mem_of_mem_filter hc), hs.2⟩
  | addHandler h => exact .pure (stay (within_addHandler hs hm))
  | addPanelToCockpit n p =>
    refine .pure (stay ?_)
    rw [allWithin] at hs ⊢
    exact ⟨within_modifyFirst n (fun c hc => c.within_addPanel hc hm) hs.1, hs.2⟩
  | removePanelFromCockpit n x =>
    refine .pure (stay ?_)
    rw [allWithin] at hs ⊢
    exact ⟨within_modifyFirst n (fun c hc => c.within_removePanel x hc) hs.1, hs.2⟩

omit hc [DecidableEq L] [Custom σ L] in
theorem Processor.Within.of_subperm {p : Processor σ L} (h : p.Within e safe peak) {r : Receiver (Message σ L)}
    (hr : r.chan.pending.Subperm p.receiver.chan.pending) (a : Activity) :
    Processor.Within e safe peak { p with receiver := r, state := { p.state with activity := a } } := by
  obtain ⟨l, h1, h2, h3, h4⟩ := h
  refine ⟨l, h1, fun m hm => h2 m (hr.subset hm), fun o ho => h3 o ?_, h4.mono (Load.add_le_add (Load.le_refl _) (loadOf_subperm hr))⟩
  obtain ⟨m, hm, hmo⟩ := List.mem_filterMap.mp ho
  exact List.mem_filterMap.mpr ⟨m, hr.subset hm, hmo⟩

theorem Processor.within_receiveLoop (dec : Decider) (n : Nat) (p : Processor σ L) (t : Tally)
    (hp : p.Within e safe peak) : M.Tot e (p.receiveLoop dec n t) fun r => r.1.Within e safe peak := by
  induction n generalizing p t with
  | zero => exact .pure hp
  | succ n ih =>
    unfold Processor.receiveLoop
    rcases hr : p.receiver.tryRecv with ⟨r, x⟩
    obtain ⟨h1, h2⟩ := Receiver.subperm_tryRecv hr
    cases x with
    | ok m =>
      have hsub := h2 m rfl
      obtain ⟨l, g1, g2, g3, g4⟩ := hp
      have hin : m ∈ p.receiver.chan.pending := hsub.subset (by simp)
      have hle := loadOf_subperm hsub
      rw [loadOf_cons] at hle
      have hle' : l + m.load + loadOf r.chan.observations ≤ l + loadOf p.receiver.chan.observations := by
        rw [Load.add_assoc]; exact Load.add_le_add (Load.le_refl _) hle
      refine .bind (ProcessorState.within_receive hc dec _ t m g1 (g2 m hin) (g4.mono (Load.le_trans (Load.le_add _ _) hle'))
        (fun o ho => g3 o (List.mem_filterMap.mpr ⟨m, hin, ho⟩))) fun s hs => ih _ _ ?_
      refine ⟨l + m.load, hs, fun m' hm' => (g2 m' (h1.subset hm')).mono (Load.le_add _ _), fun o ho => g3 o ?_, g4.mono hle'⟩
      obtain ⟨m', hm', hmo⟩ := List.mem_filterMap.mp ho
      exact List.mem_filterMap.mpr ⟨m', h1.subset hm', hmo⟩
    | empty => exact ih _ _ (hp.of_subperm h1 p.state.activity)
    | disconnected => exact .pure (hp.of_subperm h1 p.state.activity)

theorem Processor.within_process (max : Nat) {st : Strategy} (hst : st.Safe e) (p : Processor σ L)
    (hp : p.Within e safe peak) : M.Tot e (p.process max st) fun r => r.1.Within e safe peak := by
  refine .ite (fun _ => .pure hp) fun _ => .okBind (st.ok_decider hst) fun dec =>
    .bind (within_receiveLoop hc dec max p {} hp) fun r hr => ?_
  have key : ∀ a, Processor.Within e safe peak ({ r.1 with
      receiver := r.1.receiver.len.1, state := { r.1.state with activity := a } } : Processor σ L) :=
    fun a => hr.of_subperm r.1.receiver.subperm_wait a
  exact .ite (fun _ => .okBind .now fun _ => .pure (key _)) fun _ => .pure (key r.1.state.activity)

omit [DecidableEq L] in
theorem within_putCockpits (hS : l.Small peak) (d : Bool) (cs : List (Cockpit σ L)) (into : Snapshot)
    (h : AllWithin e safe peak l (partsOfCockpits cs)) :
    M.Tot e (putCockpits d cs into) fun r => AllWithin e safe peak l (partsOfCockpits r.1) := by
  induction cs generalizing into with
  | nil => exact .pure h
  | cons c cs ih =>
    simp only [partsOfCockpits, AllWithin.append] at h
    refine .bind (c.within_putSnapshot hS hc d into h.1) fun r hr => .bind (ih _ h.2) fun r' hr' => .pure ?_
    simp only [partsOfCockpits, AllWithin.append]
    exact ⟨hr, hr'⟩

omit [DecidableEq L] in
theorem ProcessorState.within_putSnapshot (hS : l.Small peak) (s : ProcessorState σ L) (into : Snapshot) (d : Bool)
    (hs : AllWithin e safe peak l s.parts) : M.Tot e (s.putSnapshot into d) fun r => AllWithin e safe peak l r.1.parts := by
  refine .okBind (s.activity.ok_putFlags _) fun g => .ite (fun _ => ?_) fun _ => .pure hs
  rw [allWithin] at hs
  refine .bind (within_putCockpits hc hS d _ _ hs.1) fun r hr => .bind (within_putHandlers hS hc d _ _ hs.2.1) fun r' hr' =>
    .bind (within_putSnapshooters hS hc d _ _ hs.2.2) fun r'' hr'' => .pure ?_
  rw [allWithin]
  exact ⟨hr, hr', hr''⟩

omit [DecidableEq L] in
theorem Processor.within_putSnapshot (p : Processor σ L) (into : Snapshot) (d : Bool)
    (hp : p.Within e safe peak) : M.Tot e (p.putSnapshot into d) fun r => r.1.Within e safe peak := by
  obtain ⟨l, g1, g2, g3, g4⟩ := hp
  exact .bind (ProcessorState.within_putSnapshot hc (g4.mono (Load.le_add _ _)) _ into d g1) fun r hr => .pure ⟨l, hr, g2, g3, g4⟩

theorem Processor.within_call (p : Processor σ L) (c : Call σ L) (hcall : c.Within e safe peak) (hp : p.Within e safe peak) :
    M.Tot e (p.call c) fun r => r.1.Within e safe peak := by
  have zero : ∀ {l : Load} {ps : List (Tuned σ L)}, AllWithin e safe peak 0 ps → AllWithin e safe peak l ps :=
    fun {l} _ h => h.mono (by rw [← Load.zero_add l]; exact Load.le_add _ _)
  cases c with
  | process max st => exact .bind (within_process hc max hcall p hp) fun _ hr => .pure hr
  | snapshot into d => exact .bind (within_putSnapshot hc p into d hp) fun _ hr => .pure hr
  | addCockpit c =>
    obtain ⟨l, g1, g2, g3, g4⟩ := hp
    exact .pure ⟨l, ProcessorState.within_addCockpit g1 (zero hcall), g2, g3, g4⟩
  | addHandler c =>
    obtain ⟨l, g1, g2, g3, g4⟩ := hp
    exact .pure ⟨l, ProcessorState.within_addHandler g1 (zero hcall), g2, g3, g4⟩
  | addSnapshooter c =>
    obtain ⟨l, g1, g2, g3, g4⟩ := hp
    exact .pure ⟨l, ProcessorState.within_addSnapshooter g1 (zero hcall), g2, g3, g4⟩
  | setName n => exact .pure hp
  | setInactivityLimit n => exact .pure hp
  | setShowActivityState n => exact .pure hp

theorem Processor.within_calls (cs : List (Call σ L)) (hcs : ∀ c ∈ cs, c.Within e safe peak) (p : Processor σ L)
    (hp : p.Within e safe peak) : M.Tot e (p.calls cs) fun r => r.1.Within e safe peak := by
  induction cs generalizing p with
  | nil => exact .pure hp
  | cons c cs ih =>
    rw [List.forall_mem_cons] at hcs
    exact .bind (within_call hc p c hcs.1 hp) fun r hr => .bind (ih hcs.2 _ hr) fun r hr => .pure hr

omit [DecidableEq L] in
theorem within_putSnapshootersEach (d : Bool) (ss : List (Snapshooter σ L)) (into : Snapshot)
    (h : SnapshootersWithin e safe peak ss) : M.Tot e (putSnapshooters d ss into) fun r => SnapshootersWithin e safe peak r.1 := by
  induction ss generalizing into with
  | nil => unfold putSnapshooters; exact .pure h
  | cons s ss ih =>
    unfold putSnapshooters
    simp only [SnapshootersWithin, List.forall_mem_cons] at h
    obtain ⟨⟨l, hS, hl⟩, h2⟩ := h
    refine .bind (s.within_putSnapshot hS hc d _ hl) fun r hr => .bind (ih _ h2) fun r2 hr2 => .pure ?_
    simp only [SnapshootersWithin, List.forall_mem_cons]
    exact ⟨⟨l, hS, hr⟩, hr2⟩

end

theorem nodesWithin_iff {ns : List (Node σ L)} : NodesWithin e safe peak ns ↔ ∀ n ∈ ns, n.Within e safe peak := by
  induction ns with
  | nil => simp [NodesWithin]
  | cons n ns ih => simp only [NodesWithin, ih, List.forall_mem_cons]

section
variable [DecidableEq L] [Custom σ L] [CustomProcessor σ]

mutual
theorem Node.within_process (hc : CustomSafe L e safe) (hcp : CustomProcessorSafe e safe)
    (max : Nat) {st : Strategy} (hst : st.Safe e) (n : Node σ L)
    (hn : n.Within e safe peak) : M.Tot e (n.process max st) fun r => r.1.Within e safe peak := by
  match n with
  | .processor p =>
    unfold Node.process
    refine .bind (p.within_process hc max hst (by simpa only [Node.Within] using hn)) fun r hr => .pure ?_
    simpa only [Node.Within] using hr
  | .mount h ns ss =>
    simp only [Node.Within] at hn
    unfold Node.process
    refine .bind (within_processNodes hc hcp max hst ns hn.1) fun r hr => .okBind (MountHead.ok_afterRun _ _) fun _ => .pure ?_
    simp only [Node.Within]
    exact ⟨hr, hn.2⟩
  | .attached h ns ss [] =>
    simp only [Node.Within] at hn
    unfold Node.process
    refine .bind (within_processNodes hc hcp max hst ns hn.1) fun r hr => .okBind (MountHead.ok_afterRun _ _) fun _ => .pure ?_
    simp only [Node.Within]
    exact ⟨hr, hn.2⟩
  | .attached h ns ss (⟨ps, ss', closed⟩ :: inbox) =>
    simp only [Node.Within, InboxWithin] at hn
    unfold Node.process
    refine .bind (within_processNodes hc hcp max hst ns hn.1) fun r hr =>
      .bind (within_processNodes hc hcp max hst ps hn.2.2.1) fun r' hr' => .okBind (MountHead.ok_afterRun _ _) fun _ => .pure ?_
    simp only [Node.Within]
    refine ⟨?_, ?_, ?_⟩
    · rw [nodesWithin_iff] at hr hr' ⊢
      intro n hn
      rcases List.mem_append.mp hn with hn | hn
      · exact hr n hn
      · exact hr' n hn
    · obtain ⟨-, h1, -, h2, -⟩ := hn
      intro s hs
      rcases List.mem_append.mp hs with hs | hs
      · exact h1 s hs
      · exact h2 s hs
    · split
      · simp only [InboxWithin]
      · exact hn.2.2.2.2
  | .driver as => unfold Node.process; exact .pure (by simp only [Node.Within])
  | .custom s =>
    simp only [Node.Within] at hn
    unfold Node.process
    refine .bind (P := fun r : σ × Outcome => safe r.1) ?_ fun r hr => .pure ?_
    · intro k
      obtain ⟨s', o, k', h1, h2⟩ := hcp.process s max st k hn
      exact ⟨(s', o), k', h1, h2⟩
    · simpa only [Node.Within] using hr

theorem within_processNodes (hc : CustomSafe L e safe) (hcp : CustomProcessorSafe e safe)
    (max : Nat) {st : Strategy} (hst : st.Safe e) (ns : List (Node σ L)) (hn : NodesWithin e safe peak ns) :
    M.Tot e (processNodes max st ns) fun r => NodesWithin e safe peak r.1 := by
  match ns with
  | [] => unfold processNodes; exact .pure hn
  | n :: ns =>
    simp only [NodesWithin] at hn
    unfold processNodes
    refine .bind (n.within_process hc hcp max hst hn.1) fun r hr =>
      .bind (within_processNodes hc hcp max hst ns hn.2) fun r' hr' => .pure ?_
    simp only [NodesWithin]
    exact ⟨hr, hr'⟩
end

omit [DecidableEq L] in
mutual
theorem Node.within_putSnapshot (hc : CustomSafe L e safe) (hcp : CustomProcessorSafe e safe)
    (d : Bool) (n : Node σ L) (into : Snapshot) (hn : n.Within e safe peak) :
    M.Tot e (n.putSnapshot d into) fun r => r.1.Within e safe peak := by
  match n with
  | .processor p =>
    unfold Node.putSnapshot
    refine .bind (p.within_putSnapshot hc into d (by simpa only [Node.Within] using hn)) fun r hr => .pure ?_
    simpa only [Node.Within] using hr
  | .mount h ns ss =>
    unfold Node.putSnapshot
    refine .okBind (h.activity.ok_putFlags _) fun g => .ite (fun _ => ?_) fun _ => .pure hn
    simp only [Node.Within] at hn
    refine .bind (within_putNodes hc hcp d ns _ hn.1) fun r hr => .bind (within_putSnapshootersEach hc d ss _ hn.2) fun r' hr' => .pure ?_
    simp only [Node.Within]
    exact ⟨hr, hr'⟩
  | .attached h ns ss inbox =>
    unfold Node.putSnapshot
    refine .okBind (h.activity.ok_putFlags _) fun g => .ite (fun _ => ?_) fun _ => .pure hn
    simp only [Node.Within] at hn
    refine .bind (within_putNodes hc hcp d ns _ hn.1) fun r hr => .bind (within_putSnapshootersEach hc d ss _ hn.2.1) fun r' hr' => .pure ?_
    simp only [Node.Within]
    exact ⟨hr, hr', hn.2.2⟩
  | .driver as => unfold Node.putSnapshot; exact .pure (by simp only [Node.Within])
  | .custom s =>
    simp only [Node.Within] at hn
    unfold Node.putSnapshot
    refine .bind (P := fun r : σ × Snapshot => safe r.1) ?_ fun r hr => .pure ?_
    · intro k
      obtain ⟨s', o, k', h1, h2⟩ := hcp.putSnapshot s into d k hn
      exact ⟨(s', o), k', h1, h2⟩
    · simpa only [Node.Within] using hr

theorem within_putNodes (hc : CustomSafe L e safe) (hcp : CustomProcessorSafe e safe)
    (d : Bool) (ns : List (Node σ L)) (into : Snapshot) (hn : NodesWithin e safe peak ns) :
    M.Tot e (putNodes d ns into) fun r => NodesWithin e safe peak r.1 := by
  match ns with
  | [] => unfold putNodes; exact .pure hn
  | n :: ns =>
    simp only [NodesWithin] at hn
    unfold putNodes
    refine .bind (n.within_putSnapshot hc hcp d into hn.1) fun r hr => .bind (within_putNodes hc hcp d ns _ hn.2) fun r' hr' => .pure ?_
    simp only [NodesWithin]
    exact ⟨hr, hr'⟩
end

theorem Node.within_calls (hc : CustomSafe L e safe) (hcp : CustomProcessorSafe e safe)
    (cs : List NodeCall) (hcs : ∀ c ∈ cs, c.Safe e) (n : Node σ L) (hn : n.Within e safe peak) :
    M.Tot e (n.calls cs) fun r => r.1.Within e safe peak := by
  induction cs generalizing n with
  | nil => exact .pure hn
  | cons c cs ih =>
    rw [List.forall_mem_cons] at hcs
    cases c with
    | process max st =>
      exact .bind (n.within_process hc hcp max hcs.1 hn) fun r hr => .bind (ih hcs.2 _ hr) fun r hr => .pure hr
    | snapshot into d =>
      exact .bind (n.within_putSnapshot hc hcp d into hn) fun r hr => .bind (ih hcs.2 _ hr) fun r hr => .pure hr
end

/-! ## Drivers without metrics about themselves -/

/-- Everything in the loop of a driver is within its limits. -/
structure LoopState.Light (e : Env) (safe : σ → Prop) (peak : Nat) (l : LoopState σ L) : Prop where
  metrics : l.metrics = none
  processors : NodesWithin e safe peak l.processors
  snapshooters : SnapshootersWithin e safe peak l.snapshooters
  strategy : l.strategy.Safe e

section
variable [DecidableEq L] [Custom σ L] [CustomProcessor σ] (hc : CustomSafe L e safe)
  (hcp : CustomProcessorSafe e safe)
include hc hcp

omit [DecidableEq L] in
theorem LoopState.light_addSnapshotValues {l : LoopState σ L} (hl : l.Light e safe peak) (into : Snapshot) (d : Bool) (t : Int) :
    M.Tot e (l.addSnapshotValues into d t) fun r => r.1.Light e safe peak := by
  refine .bind (within_putNodes hc hcp d _ _ hl.2) fun r hr => .bind (within_putSnapshootersEach hc d _ _ hl.3) fun r' hr' => ?_
  rw [hl.metrics]
  exact .pure ⟨rfl, hr, hr', hl.4⟩

omit [DecidableEq L] in
theorem LoopState.light_makeSnapshot {l : LoopState σ L} (hl : l.Light e safe peak) (d : Bool) :
    M.Tot e (l.makeSnapshot d) fun r => r.1.Light e safe peak := by
  refine .okBind .now fun t => ?_
  cases hn : l.name with
  | none => exact LoopState.light_addSnapshotValues hc hcp hl _ _ _
  | some n => exact .bind (LoopState.light_addSnapshotValues hc hcp hl _ _ _) fun r hr => .pure hr

omit [DecidableEq L] in
theorem LoopState.light_handle {l : LoopState σ L} (hl : l.Light e safe peak) (m : DriverMsg σ L) (hm : m.Within e safe peak) :
    M.Tot e (l.handle m) fun r => r.1.Light e safe peak ∧ (∀ id d, m = .getSnapshot id d → r.2 ≠ none) := by
  cases m with
  | addProcessor n =>
    refine .pure ⟨⟨hl.1, ?_, hl.3, hl.4⟩, fun _ _ h => (nomatch h)⟩
    have := hl.2
    rw [nodesWithin_iff] at this ⊢
    intro x hx
    rcases List.mem_append.mp hx with hx | hx
    · exact this x hx
    · rw [List.mem_singleton.mp hx]; exact hm
  | addSnapshooter n =>
    refine .pure ⟨⟨hl.1, hl.2, ?_, hl.4⟩, fun _ _ h => (nomatch h)⟩
    have := hl.3
    intro x hx
    rcases List.mem_append.mp hx with hx | hx
    · exact this x hx
    · rw [List.mem_singleton.mp hx]; exact hm
  | getSnapshot id d =>
    exact .bind (LoopState.light_makeSnapshot hc hcp hl d) fun r hr => .pure ⟨hr, fun _ _ _ h => (nomatch h)⟩
  | setStrategy s => exact .pure ⟨⟨hl.1, hl.2, hl.3, hm⟩, fun _ _ h => (nomatch h)⟩
  | pause => exact .pure ⟨⟨hl.1, hl.2, hl.3, hl.4⟩, fun _ _ h => (nomatch h)⟩
  | resume => exact .pure ⟨⟨hl.1, hl.2, hl.3, hl.4⟩, fun _ _ h => (nomatch h)⟩

omit [DecidableEq L] in
theorem LoopState.light_begin {l : LoopState σ L} (hl : l.Light e safe peak) (m : Option (DriverMsg σ L))
    (hm : ∀ x, m = some x → x.Within e safe peak) :
    M.Tot e (l.begin m) fun r => r.1.Light e safe peak ∧ (∀ id d, m = some (.getSnapshot id d) → r.2.2 ≠ none) := by
  refine .okBind .now fun t => ?_
  cases m with
  | none => exact .pure ⟨hl, fun _ _ h => (nomatch h)⟩
  | some m =>
    exact .bind (LoopState.light_handle hc hcp hl m (hm m rfl)) fun r hr => .pure ⟨hr.1, fun id d h => hr.2 id d (by cases h; rfl)⟩

omit hc hcp [DecidableEq L] [Custom σ L] [CustomProcessor σ] in
theorem LoopState.light_logDropped {l : LoopState σ L} (hl : l.Light e safe peak) (n : Nat) :
    M.Tot e (l.logDropped n) (LoopState.Light e safe peak) :=
  .ite (fun _ => .okBind .now fun _ => .ite (fun _ => .okBind .readings fun _ => .okBind .now fun _ => .pure ⟨hl.1, hl.2, hl.3, hl.4⟩)
    fun _ => .pure ⟨hl.1, hl.2, hl.3, hl.4⟩) fun _ => .pure ⟨hl.1, hl.2, hl.3, hl.4⟩

omit hc hcp [DecidableEq L] [Custom σ L] [CustomProcessor σ] in
theorem LoopState.light_noteRun {l : LoopState σ L} (hl : l.Light e safe peak) (o : Outcome) (t : Int) :
    M.Tot e (l.noteRun o t) (LoopState.Light e safe peak) := by
  unfold LoopState.noteRun
  rw [hl.metrics]
  exact .pure hl

omit hc hcp [DecidableEq L] [Custom σ L] [CustomProcessor σ] in
theorem LoopState.light_reportElapsed {l : LoopState σ L} (hl : l.Light e safe peak) (t : Int) (n : Nat) :
    M.Tot e (l.reportElapsed t n) (LoopState.Light e safe peak) := by
  unfold LoopState.reportElapsed
  rw [hl.metrics]
  exact .pure hl

theorem LoopState.light_work {l : LoopState σ L} (hl : l.Light e safe peak) (t : Int) :
    M.Tot e (l.work t) fun r => r.1.Light e safe peak ∧ (l.paused = false → r.2.1 ≠ none) := by
  refine .ite (fun hp => .okBind .readings fun _ => .pure ⟨hl, fun h => by rw [hp] at h; cases h⟩) fun _ => .okBind .now fun _ =>
    .bind (within_processNodes hc hcp _ hl.4 _ hl.2) fun r hr => .okBind .now fun _ =>
    .bind (light_logDropped (l := { l with processors := r.1 }) ⟨hl.1, hr, hl.3, hl.4⟩ _) fun l hl =>
    .bind (light_noteRun hl _ _) fun l hl =>
    .ite (fun _ => .pure ⟨hl, fun _ h => (nomatch h)⟩) fun _ => .okBind .now fun _ => .okBind .readings fun _ =>
      .bind (light_reportElapsed hl _ _) fun l hl =>
      .pure ⟨hl, fun _ h => (nomatch h)⟩

/-- An iteration of a driver within its limits. -/
theorem light_iterate {l : Loop σ L} (hl : l.state.Light e safe peak) (hp : ∀ m ∈ l.receiver.chan.pending, m.Within e safe peak)
    {k k' : Nat} {t : DriverThread σ L} {i : Option (Iteration σ L)}
    (h : (DriverThread.running l).iterate e k = (t, i, k')) :
    (i = none ∧ ∃ c, t = .ended c ∧ c.abandoned = true) ∨
    ∃ l' x, t = .running l' ∧ i = some x ∧ l'.state.Light e safe peak ∧ (∀ m ∈ l'.receiver.chan.pending, m.Within e safe peak) ∧
      (∀ id d, x.message = some (.getSnapshot id d) → x.answer ≠ none) ∧ (l'.state.paused = false → x.outcome ≠ none) := by
  cases iterates h with
  | stop hpoll => exact .inl ⟨rfl, _, rfl, poll_stop hpoll⟩
  | panicEarly hpoll hb =>
    obtain ⟨h1, h2⟩ := pending_poll hpoll
    obtain ⟨a, j, ha, -⟩ := LoopState.light_begin hc hcp hl _ (fun x hx => hp x (h2 x hx)) k
    rw [ha] at hb; cases hb
  | panicLate hpoll hb hw =>
    obtain ⟨h1, h2⟩ := pending_poll hpoll
    obtain ⟨a, j, ha, hg⟩ := LoopState.light_begin hc hcp hl _ (fun x hx => hp x (h2 x hx)) k
    rw [ha] at hb; cases hb
    obtain ⟨a, j, ha, -⟩ := LoopState.light_work hc hcp hg.1 _ k'
    rw [ha] at hw; cases hw
  | @done r m s started answer k₁ s' outcome rest k₂ hpoll hb hw =>
    obtain ⟨h1, h2⟩ := pending_poll hpoll
    obtain ⟨a, j, ha, hg⟩ := LoopState.light_begin hc hcp hl _ (fun x hx => hp x (h2 x hx)) k
    rw [ha] at hb; cases hb
    obtain ⟨a, j, ha, hg'⟩ := LoopState.light_work hc hcp hg.1 started k₁
    have hpaused := work_state hw
    rw [ha] at hw; cases hw
    exact .inr ⟨_, _, rfl, rfl, hg'.1, fun m hm => hp m (h1 m hm), hg.2, fun hp => hg'.2 (by
      rcases hpaused with ⟨_, _, h⟩ | ⟨h, _⟩
      · rw [← h]; exact hp
      · exact h)⟩

/-- The life of a driver within its limits. -/
theorem DriverLife.staysLight {k k' : Nat} {t t' : DriverThread σ L} {log : List (Iteration σ L)} (h : DriverLife e k t log k' t')
    (ht : ∀ l, t = .running l → l.state.Light e safe peak ∧ ∀ m ∈ l.receiver.chan.pending, m.Within e safe peak)
    (hended : ∀ c, t = .ended c → c.abandoned = true) :
    (∀ c, t' = .ended c → c.abandoned = true) ∧
    (∀ l, t' = .running l → l.state.Light e safe peak ∧ ∀ m ∈ l.receiver.chan.pending, m.Within e safe peak) ∧
    ∀ x ∈ log, ∀ id d, x.message = some (.getSnapshot id d) → x.answer ≠ none := by
  induction h with
  | nil hk => exact ⟨hended, ht, fun _ h => (nomatch h)⟩
  | @iteration k k₁ k₂ k' t t₁ t' i log hk hi _ ih =>
    cases t with
    | ended c => have := (iterate_ended hi).2.1; simp at this
    | running l =>
      obtain ⟨h1, h2⟩ := ht l rfl
      rcases light_iterate hc hcp h1 h2 hi with ⟨h, _⟩ | ⟨l', x, rfl, hx, g1, g2, g3, -⟩
      · cases h
      · cases hx
        obtain ⟨a, b, c⟩ := ih (by intro l hl; cases hl; exact ⟨g1, g2⟩) (by intro c hc; cases hc)
        exact ⟨a, b, fun x hx => by
          rcases List.mem_cons.mp hx with rfl | hx
          · exact g3
          · exact c x hx⟩
  | @over k k₁ k₂ k' t t₁ t' log hk hi _ ih =>
    cases t with
    | ended c =>
      obtain ⟨rfl, -, -⟩ := iterate_ended hi
      exact ih ht hended
    | running l =>
      obtain ⟨h1, h2⟩ := ht l rfl
      rcases light_iterate hc hcp h1 h2 hi with ⟨_, c, rfl, hc⟩ | ⟨l', x, rfl, hx, g1, g2, g3, -⟩
      · exact ih (by intro l hl; cases hl) (by intro c hc; cases hc; assumption)
      · cases hx
  | others _ ih =>
    refine ih (by intro l hl; cases hl) ?_
    intro c hc
    cases hc
    exact (congrArg Channel.abandoned (Channel.abandoned_run _ _ (hended _ rfl))).trans (hended _ rfl)

end

end Metrix
