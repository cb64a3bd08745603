import Verif.Spec.UndisturbedRun
import Verif.Proof.UndisturbedTree
import Verif.Proof.SafeRun

/-! Processors and mounts that differ only by how far the things in them have been ticked behave the same. -/

namespace Metrix
variable {σ L : Type}

/-! ## Runs -/

/-- What makes leaving out calls harmless. -/
theorem AtMoments.without {X O R : Type} {call : X → O → M (X × R)} {kind : O → Prop} {e : Env} (mono : e.Mono)
    (Q : O → Prop) (A : Int → X → X → Prop) (later : ∀ {t t' x x'}, t ≤ t' → A t x x' → A t' x x')
    (same : ∀ {m x x'} (o : O), Q o → A (e.clock m) x x' →
      M.Sync (e.at m) (fun a b => a.2 = b.2 ∧ A (e.clock m) a.1 b.1) (call x o) (call x' o))
    (skip : ∀ {m x x'} (o : O), kind o → A (e.clock m) x x' → ∀ k r, call x o (e.at m) k = some r → A (e.clock m) r.1.1 x')
    {x x₁ x' : X} {log fewer : List (Nat × O × R)} (h : AtMoments call e x log x') (hq : ∀ c ∈ log, Q c.2.1)
    (ho : MomentsInOrder log) (hw : Without kind fewer log) (hr : ∀ m ∈ log.map (·.1), A (e.clock m) x x₁) :
    ∃ x'', AtMoments call e x₁ fewer x'' := by
  induction h generalizing x₁ fewer with
  | nil x =>
    cases hw
    exact ⟨x₁, .nil _⟩
  | @cons x x₂ x' m k o r log hs _ ih =>
    have hm := hr m (by simp)
    have hord := List.pairwise_cons.1 ho
    have next : ∀ {x₂ x₃ : X}, A (e.clock m) x₂ x₃ → ∀ m' ∈ log.map (·.1), A (e.clock m') x₂ x₃ :=
      fun h m' hm' => later (mono _ _ (hord.1 m' hm')) h
    have hq' : ∀ c ∈ log, Q c.2.1 := fun c hc => hq c (List.mem_cons_of_mem _ hc)
    cases hw with
    | keep _ hw =>
      have := same o (hq _ (List.mem_cons_self ..)) hm 0 0
      rw [hs] at this
      cases h3 : call x₁ o (e.at m) 0 with
      | none => rw [h3] at this; cases this
      | some r' =>
        rw [h3] at this
        obtain ⟨⟨y, r'⟩, k'⟩ := r'
        cases this with
        | some h =>
          obtain ⟨rfl, h⟩ := h
          obtain ⟨x'', h⟩ := ih hq' hord.2 hw (next h)
          exact ⟨x'', .cons h3 h⟩
    | leaveOut _ hk hw => exact ih hq' hord.2 hw (next (skip o hk hm _ _ hs))

/-! ## Processors -/

/-- Cockpits one by one. -/
abbrev CockpitsAlike (rnd : Rat → Rat) (t : Int) : List (Cockpit σ L) → List (Cockpit σ L) → Prop :=
  List.Forall₂ (Cockpit.Alike rnd t)

def ProcessorState.Alike (rnd : Rat → Rat) (t : Int) (s s' : ProcessorState σ L) : Prop :=
  ∃ cs hs ss, s' = { s with cockpits := cs, handlers := hs, snapshooters := ss } ∧ CockpitsAlike rnd t s.cockpits cs ∧
    HandlersAlike rnd t s.handlers hs ∧ SnapshootersAlike rnd t s.snapshooters ss

section
variable {rnd : Rat → Rat} {t t' : Int}

theorem cockpitsAlike_refl {cs : List (Cockpit σ L)} (h : RingsOk (instrumentsOfCockpits cs)) : CockpitsAlike rnd t cs cs := by
  induction cs with
  | nil => exact .nil
  | cons c cs ih => exact .cons (Cockpit.alike_refl rnd t h.left) (ih h.right)

theorem ProcessorState.alike_refl {s : ProcessorState σ L} (h : RingsOk s.instruments) : s.Alike rnd t s :=
  ⟨_, _, _, rfl, cockpitsAlike_refl h.left, handlersAlike_refl rnd t h.right.left, snapshootersAlike_refl rnd t h.right.right⟩

theorem ProcessorState.Alike.mono (ht : t ≤ t') {s s' : ProcessorState σ L} (h : s.Alike rnd t s') : s.Alike rnd t' s' := by
  obtain ⟨cs, hs, ss, rfl, h1, h2, h3⟩ := h
  exact ⟨cs, hs, ss, rfl, h1.imp fun _ _ h => h.mono ht, h2.mono ht, h3.mono ht⟩

theorem Panel.Alike.name {p p' : Panel σ L} (h : p.Alike rnd t p') : p'.name = p.name := by
  cases h with
  | mk hh _ _ _ =>
    obtain ⟨_, _, rfl, _⟩ := hh
    rfl

theorem Cockpit.Alike.name {c c' : Cockpit σ L} (h : c.Alike rnd t c') : c'.name = c.name := by
  obtain ⟨ps, hs, ss, rfl, _⟩ := h
  rfl

theorem PanelsAlike.append : ∀ {a a' b b' : List (Panel σ L)}, PanelsAlike rnd t a a' → PanelsAlike rnd t b b' →
    PanelsAlike rnd t (a ++ b) (a' ++ b')
  | _, _, _, _, .nil, h => h
  | _, _, _, _, .cons h1 h2, h => .cons h1 (h2.append h)

theorem HandlersAlike.append : ∀ {a a' b b' : List (Handler σ L)}, HandlersAlike rnd t a a' → HandlersAlike rnd t b b' →
    HandlersAlike rnd t (a ++ b) (a' ++ b')
  | _, _, _, _, .nil, h => h
  | _, _, _, _, .cons h1 h2, h => .cons h1 (h2.append h)

theorem SnapshootersAlike.append : ∀ {a a' b b' : List (Snapshooter σ L)}, SnapshootersAlike rnd t a a' →
    SnapshootersAlike rnd t b b' → SnapshootersAlike rnd t (a ++ b) (a' ++ b')
  | _, _, _, _, .nil, h => h
  | _, _, _, _, .cons h1 h2, h => .cons h1 (h2.append h)

theorem PanelsAlike.any : ∀ {ps ps' : List (Panel σ L)}, PanelsAlike rnd t ps ps' → ∀ f : Panel σ L → Bool,
    (∀ a b, a.name = b.name → f a = f b) → ps'.any f = ps.any f
  | _, _, .nil, _, _ => rfl
  | _, _, .cons h1 h2, f, hf => by simp only [List.any_cons, hf _ _ h1.name, h2.any f hf]

theorem PanelsAlike.filter : ∀ {ps ps' : List (Panel σ L)}, PanelsAlike rnd t ps ps' → ∀ f : Option String → Bool,
    PanelsAlike rnd t (ps.filter fun q => f q.name) (ps'.filter fun q => f q.name)
  | _, _, .nil, _ => .nil
  | _, _, .cons h1 h2, f => by
    simp only [List.filter_cons, h1.name]
    split
    · exact .cons h1 (h2.filter f)
    · exact h2.filter f

theorem CockpitsAlike.any {cs cs' : List (Cockpit σ L)} (h : CockpitsAlike rnd t cs cs') (f : Cockpit σ L → Bool)
    (hf : ∀ a b, a.name = b.name → f a = f b) : cs'.any f = cs.any f := by
  induction h with
  | nil => rfl
  | cons h1 _ ih => simp only [List.any_cons, hf _ _ h1.name, ih]

theorem CockpitsAlike.filter {cs cs' : List (Cockpit σ L)} (h : CockpitsAlike rnd t cs cs') (f : Option String → Bool) :
    CockpitsAlike rnd t (cs.filter fun q => f q.name) (cs'.filter fun q => f q.name) := by
  induction h with
  | nil => exact .nil
  | cons h1 _ ih =>
    simp only [List.filter_cons, h1.name]
    split
    · exact .cons h1 ih
    · exact ih

theorem Cockpit.Alike.addPanel {c c' : Cockpit σ L} (h : c.Alike rnd t c') {p : Panel σ L} (hp : RingsOk p.instruments) :
    (c.addPanel p).Alike rnd t (c'.addPanel p) := by
  obtain ⟨ps, hs, ss, rfl, h1, h2, h3⟩ := h
  have hadd : PanelsAlike rnd t (c.panels ++ [p]) (ps ++ [p]) := h1.append (.cons (Panel.alike_refl rnd t hp) .nil)
  unfold Cockpit.addPanel
  cases p.name with
  | none => exact ⟨_, _, _, rfl, hadd, h2, h3⟩
  | some n =>
    simp only
    rw [h1.any _ fun a b h => by simp only [h]]
    split
    · exact ⟨_, _, _, rfl, h1, h2, h3⟩
    · exact ⟨_, _, _, rfl, hadd, h2, h3⟩

theorem Cockpit.Alike.removePanel {c c' : Cockpit σ L} (h : c.Alike rnd t c') (n : String) :
    (c.removePanel n).Alike rnd t (c'.removePanel n) := by
  obtain ⟨ps, hs, ss, rfl, h1, h2, h3⟩ := h
  exact ⟨_, _, _, rfl, h1.filter fun m => match m with
      | some m => m != n
      | none => true, h2, h3⟩

theorem CockpitsAlike.modifyFirst (n : String) {f : Cockpit σ L → Cockpit σ L}
    (hf : ∀ c c', c.Alike rnd t c' → (f c).Alike rnd t (f c')) {cs cs' : List (Cockpit σ L)} (h : CockpitsAlike rnd t cs cs') :
    CockpitsAlike rnd t (ProcessorState.modifyFirst n f cs) (ProcessorState.modifyFirst n f cs') := by
  induction h with
  | nil => exact .nil
  | cons h1 h2 ih =>
    simp only [ProcessorState.modifyFirst, h1.name]
    split
    · exact .cons (hf _ _ h1) h2
    · exact .cons h1 ih

theorem ProcessorState.Alike.addCockpit {s s' : ProcessorState σ L} (h : s.Alike rnd t s') {c : Cockpit σ L}
    (hc : RingsOk c.instruments) : (s.addCockpit c).Alike rnd t (s'.addCockpit c) := by
  obtain ⟨cs, hs, ss, rfl, h1, h2, h3⟩ := h
  have hadd : CockpitsAlike rnd t (s.cockpits ++ [c]) (cs ++ [c]) :=
    List.rel_append h1 (.cons (Cockpit.alike_refl rnd t hc) .nil)
  unfold ProcessorState.addCockpit
  cases c.name with
  | none => exact ⟨_, _, _, rfl, hadd, h2, h3⟩
  | some n =>
    simp only
    rw [CockpitsAlike.any h1 _ fun a b h => by simp only [h]]
    split
    · exact ⟨_, _, _, rfl, h1, h2, h3⟩
    · exact ⟨_, _, _, rfl, hadd, h2, h3⟩

theorem ProcessorState.Alike.addHandler {s s' : ProcessorState σ L} (h : s.Alike rnd t s') {x : Handler σ L}
    (hx : RingsOk x.instruments) : (s.addHandler x).Alike rnd t (s'.addHandler x) := by
  obtain ⟨cs, hs, ss, rfl, h1, h2, h3⟩ := h
  exact ⟨_, _, _, rfl, h1, h2.append (.cons (Handler.alike_refl rnd t hx) .nil), h3⟩

theorem ProcessorState.Alike.addSnapshooter {s s' : ProcessorState σ L} (h : s.Alike rnd t s') {x : Snapshooter σ L}
    (hx : RingsOk x.instruments) : (s.addSnapshooter x).Alike rnd t (s'.addSnapshooter x) := by
  obtain ⟨cs, hs, ss, rfl, h1, h2, h3⟩ := h
  exact ⟨_, _, _, rfl, h1, h2, h3.append (.cons (Snapshooter.alike_refl rnd t hx) .nil)⟩

end

section
variable [Custom σ L] {e : Env} {t : Int}

theorem CockpitsAlike.handle [DecidableEq L] (hc : StillAt σ L e) (hf : Frozen e t) (o : Observation L) {cs cs' : List (Cockpit σ L)}
    (h : CockpitsAlike e.rnd t cs cs') : Takes e (CockpitsAlike e.rnd t) (handleCockpits o cs) (handleCockpits o cs') := by
  induction h with
  | nil => exact .pure ⟨rfl, .nil⟩
  | cons h1 _ ih =>
    refine .bind _ (h1.handle hc hf o) ?_
    rintro ⟨a, n₁⟩ ⟨a', _⟩ ⟨rfl, h1⟩
    refine .bind _ ih ?_
    rintro ⟨b, n₂⟩ ⟨b', _⟩ ⟨rfl, h2⟩
    exact .pure ⟨rfl, .cons h1 h2⟩

theorem CockpitsAlike.put (hc : StillAt σ L e) (hf : Frozen e t) (d : Bool) {cs cs' : List (Cockpit σ L)}
    (h : CockpitsAlike e.rnd t cs cs') (into : Snapshot) :
    PutsSame e (CockpitsAlike e.rnd t) cs' (putCockpits d cs into) (putCockpits d cs' into) := by
  induction h generalizing into with
  | nil => exact .pure ⟨rfl, .nil, .nil⟩
  | cons h1 _ ih =>
    refine .bind _ (h1.put hc hf into d) ?_
    rintro ⟨a, n₁⟩ ⟨a', _⟩ ⟨rfl, h1, h1'⟩
    refine .bind _ (ih n₁) ?_
    rintro ⟨b, n₂⟩ ⟨b', _⟩ ⟨rfl, h2, h2'⟩
    exact .pure ⟨rfl, .cons h1 h2, .cons h1' h2'⟩

theorem ProcessorState.Alike.receive [DecidableEq L] (hc : StillAt σ L e) (hf : Frozen e t) (dec : Decider) (ta : Tally)
    {s s' : ProcessorState σ L} (h : s.Alike e.rnd t s') {m : Message σ L} (hm : RingsOk m.instruments) :
    M.Sync e (fun a b => a.2 = b.2 ∧ a.1.Alike e.rnd t b.1) (s.receive dec ta m) (s'.receive dec ta m) := by
  cases m with
  | observation o =>
    obtain ⟨cs, hs, ss, rfl, h1, h2, h3⟩ := h
    refine .ite ?_ (.pure ⟨rfl, _, _, _, rfl, h1, h2, h3⟩)
    refine .bind _ (CockpitsAlike.handle hc hf o h1) ?_
    rintro ⟨a, n₁⟩ ⟨a', _⟩ ⟨rfl, h1⟩
    refine .bind _ (h2.handle hc hf o) ?_
    rintro ⟨b, n₂⟩ ⟨b', _⟩ ⟨rfl, h2⟩
    exact .pure ⟨rfl, _, _, _, rfl, h1, h2, h3⟩
  | addCockpit c => exact .pure ⟨rfl, h.addCockpit hm⟩
  | removeCockpit n =>
    obtain ⟨cs, hs, ss, rfl, h1, h2, h3⟩ := h
    exact .pure ⟨rfl, _, _, _, rfl, CockpitsAlike.filter h1 fun m => match m with
      | some m => m != n
      | none => true, h2, h3⟩
  | addHandler x => exact .pure ⟨rfl, h.addHandler hm⟩
  | addPanelToCockpit n p =>
    obtain ⟨cs, hs, ss, rfl, h1, h2, h3⟩ := h
    exact .pure ⟨rfl, _, _, _, rfl, CockpitsAlike.modifyFirst n (fun _ _ h => h.addPanel hm) h1, h2, h3⟩
  | removePanelFromCockpit n x =>
    obtain ⟨cs, hs, ss, rfl, h1, h2, h3⟩ := h
    exact .pure ⟨rfl, _, _, _, rfl, CockpitsAlike.modifyFirst n (fun _ _ h => h.removePanel x) h1, h2, h3⟩

theorem ProcessorState.Alike.put (hc : StillAt σ L e) (hf : Frozen e t) {s s' : ProcessorState σ L} (h : s.Alike e.rnd t s')
    (into : Snapshot) (d : Bool) :
    PutsSame e (ProcessorState.Alike e.rnd t) s' (s.putSnapshot into d) (s'.putSnapshot into d) := by
  obtain ⟨cs, hs, ss, rfl, h1, h2, h3⟩ := h
  unfold ProcessorState.putSnapshot
  refine .bindEq (sync_putFlags hf _ _) fun f => .ite (.bind _ (CockpitsAlike.put hc hf d h1 f.2) ?_)
    (.pure ⟨rfl, ⟨_, _, _, rfl, h1, h2, h3⟩, ⟨_, _, _, rfl, h1, h2, h3⟩⟩)
  rintro ⟨a, s₁⟩ ⟨a', _⟩ ⟨rfl, h1, h1'⟩
  refine .bind _ (h2.put hc hf d s₁) ?_
  rintro ⟨a, s₂⟩ ⟨a', _⟩ ⟨rfl, h2, h2'⟩
  refine .bind _ (h3.put hc hf d s₂) ?_
  rintro ⟨a, s₃⟩ ⟨a', _⟩ ⟨rfl, h3, h3'⟩
  exact .pure ⟨rfl, ⟨_, _, _, rfl, h1, h2, h3⟩, ⟨_, _, _, rfl, h1', h2', h3'⟩⟩

end

/-- The messages of a channel. -/
def PendingOk (c : Channel (Message σ L)) : Prop := ∀ m ∈ c.pending, RingsOk m.instruments

def Processor.Alike (rnd : Rat → Rat) (t : Int) (p p' : Processor σ L) : Prop :=
  ∃ st, p' = { p with state := st } ∧ p.state.Alike rnd t st ∧ PendingOk p.receiver.chan

theorem Processor.alike_refl {rnd : Rat → Rat} {t : Int} {p : Processor σ L} (h : RingsOk p.instruments) : p.Alike rnd t p :=
  ⟨_, rfl, ProcessorState.alike_refl h.left, fun m hm g r hg =>
    h.right g r (List.mem_flatMap.mpr ⟨m, hm, hg⟩)⟩

theorem Processor.Alike.mono {rnd : Rat → Rat} {t t' : Int} (ht : t ≤ t') {p p' : Processor σ L} (h : p.Alike rnd t p') :
    p.Alike rnd t' p' := by
  obtain ⟨st, rfl, h1, h2⟩ := h
  exact ⟨st, rfl, h1.mono ht, h2⟩

section
variable [DecidableEq L] [Custom σ L] {e : Env} {t : Int}

theorem sync_decider (hf : Frozen e t) (st : Strategy) : M.Sync e Eq st.decider st.decider := by
  cases st with
  | processAll => exact .pure rfl
  | dropAll => exact .pure rfl
  | dropOlderThan a b => exact .bindEq hf.now fun _ => .bindEq (sync_subDur _ _) fun _ => .pure rfl

theorem Processor.Alike.receiveLoop (hc : StillAt σ L e) (hf : Frozen e t) (dec : Decider) (n : Nat) (ta : Tally) {p p' : Processor σ L}
    (h : p.Alike e.rnd t p') :
    M.Sync e (fun a b => a.2 = b.2 ∧ a.1.Alike e.rnd t b.1) (p.receiveLoop dec n ta) (p'.receiveLoop dec n ta) := by
  induction n generalizing p p' ta with
  | zero => exact .pure ⟨rfl, h⟩
  | succ n ih =>
    obtain ⟨st, rfl, h1, h2⟩ := h
    unfold Processor.receiveLoop
    rcases hr : p.receiver.tryRecv with ⟨r, x⟩
    obtain ⟨g1, g2⟩ := Receiver.pending_tryRecv hr
    have hp : PendingOk r.chan := fun m hm => h2 m (g1 m hm)
    simp only [hr]
    cases x with
    | ok m =>
      refine .bind _ (h1.receive hc hf dec ta (h2 m (g2 m rfl))) ?_
      rintro ⟨a, n₁⟩ ⟨a', _⟩ ⟨rfl, h1⟩
      exact ih _ ⟨_, rfl, h1, hp⟩
    | empty => exact ih _ ⟨_, rfl, h1, hp⟩
    | disconnected => exact .pure ⟨rfl, _, rfl, h1, hp⟩

theorem ProcessorState.Alike.active {rnd : Rat → Rat} {s s' : ProcessorState σ L} (h : s.Alike rnd t s') (a : Activity) :
    ({ s with activity := a } : ProcessorState σ L).Alike rnd t { s' with activity := a } := by
  obtain ⟨cs, hs, ss, rfl, h1, h2, h3⟩ := h
  exact ⟨_, _, _, rfl, h1, h2, h3⟩

theorem ProcessorState.Alike.activity {rnd : Rat → Rat} {s s' : ProcessorState σ L} (h : s.Alike rnd t s') :
    s'.activity = s.activity := by
  obtain ⟨cs, hs, ss, rfl, h1, h2, h3⟩ := h
  rfl

theorem Processor.Alike.process (hc : StillAt σ L e) (hf : Frozen e t) {p p' : Processor σ L} (h : p.Alike e.rnd t p') (max : Nat)
    (strategy : Strategy) :
    M.Sync e (fun a b => a.2 = b.2 ∧ a.1.Alike e.rnd t b.1) (p.process max strategy) (p'.process max strategy) := by
  have hd : p'.isDisconnected = p.isDisconnected := by obtain ⟨st, rfl, _⟩ := h; rfl
  unfold Processor.process
  rw [hd]
  refine .ite (.pure ⟨rfl, h⟩) (.bindEq (sync_decider hf strategy) fun dec => ?_)
  refine .bind _ (h.receiveLoop hc hf dec max {}) ?_
  rintro ⟨q, ta⟩ ⟨q', _⟩ ⟨rfl, st, rfl, h1, h2⟩
  have hp : PendingOk q.receiver.len.1.chan := fun m hm => h2 m (q.receiver.pending_wait m hm)
  refine .ite (.bindEq hf.now fun now => .pure ⟨rfl, _, rfl, ?_, hp⟩) (.pure ⟨rfl, _, rfl, h1, hp⟩)
  rw [h1.activity]
  exact h1.active _

omit [DecidableEq L] in
theorem Processor.Alike.put (hc : StillAt σ L e) (hf : Frozen e t) {p p' : Processor σ L} (h : p.Alike e.rnd t p')
    (into : Snapshot) (d : Bool) : PutsSame e (Processor.Alike e.rnd t) p' (p.putSnapshot into d) (p'.putSnapshot into d) := by
  obtain ⟨st, rfl, h1, h2⟩ := h
  refine .bind _ (h1.put hc hf into d) ?_
  rintro ⟨a, s₁⟩ ⟨a', _⟩ ⟨rfl, h1, h1'⟩
  exact .pure ⟨rfl, ⟨_, rfl, h1, h2⟩, ⟨_, rfl, h1', h2⟩⟩

omit [DecidableEq L] [Custom σ L] in
theorem ProcessorState.Alike.set {rnd : Rat → Rat} {s s' : ProcessorState σ L} (h1 : s.Alike rnd t s') {c : Call σ L}
    (hr : RingsOk c.instruments) : (s.set c).Alike rnd t (s'.set c) := by
  cases c with
  | process max s => exact h1
  | snapshot into d => exact h1
  | addCockpit c => exact h1.addCockpit hr
  | addHandler x => exact h1.addHandler hr
  | addSnapshooter x => exact h1.addSnapshooter hr
  | setName n =>
    obtain ⟨cs, hs, ss, rfl, g⟩ := h1
    exact ⟨_, _, _, rfl, g⟩
  | setInactivityLimit n =>
    obtain ⟨cs, hs, ss, rfl, g⟩ := h1
    exact ⟨_, _, _, rfl, g⟩
  | setShowActivityState n =>
    obtain ⟨cs, hs, ss, rfl, g⟩ := h1
    exact ⟨_, _, _, rfl, g⟩

theorem Processor.Alike.set {rnd : Rat → Rat} {p p' : Processor σ L} (h : p.Alike rnd t p') {c : Call σ L} (hr : RingsOk c.instruments) :
    ({ p with state := p.state.set c } : Processor σ L).Alike rnd t { p' with state := p'.state.set c } := by
  obtain ⟨st, rfl, h1, h2⟩ := h
  exact ⟨_, rfl, h1.set hr, h2⟩

theorem Processor.Alike.call (hc : StillAt σ L e) (hf : Frozen e t) {p p' : Processor σ L} (h : p.Alike e.rnd t p') {c : Call σ L}
    (hr : RingsOk c.instruments) :
    M.Sync e (fun a b => a.2 = b.2 ∧ a.1.Alike e.rnd t b.1) (p.call c) (p'.call c) := by
  cases c with
  | process max s =>
    exact .bind _ (h.process hc hf max s) fun a b h => .pure ⟨by rw [h.1], h.2⟩
  | snapshot into d =>
    exact .bind _ (h.put hc hf into d) fun a b h => .pure ⟨by rw [h.1], h.2.1⟩
  | addCockpit c => exact .pure ⟨rfl, h.set hr⟩
  | addHandler x => exact .pure ⟨rfl, h.set hr⟩
  | addSnapshooter x => exact .pure ⟨rfl, h.set hr⟩
  | setName n => exact .pure ⟨rfl, h.set hr⟩
  | setInactivityLimit n => exact .pure ⟨rfl, h.set hr⟩
  | setShowActivityState n => exact .pure ⟨rfl, h.set hr⟩

omit [DecidableEq L] in
/-- A snapshot that is not taken does not matter. -/
theorem PutsSame.left {C : Type} {R : C → C → Prop} {c' : C} {x y : M (C × Snapshot)} (h : PutsSame e R c' x y) {k : Nat}
    {r : (C × Snapshot) × Nat} (hx : x e k = some r) : R r.1.1 c' := by
  have := h k k
  rw [hx] at this
  cases hy : y e k with
  | none => rw [hy] at this; cases this
  | some b =>
    rw [hy] at this
    cases this with
    | some h => exact h.2.2
end

/-! ## Mounts -/

mutual
inductive Node.Alike (rnd : Rat → Rat) (t : Int) : Node σ L → Node σ L → Prop
  | processor {p p' : Processor σ L} : p.Alike rnd t p' → Node.Alike rnd t (.processor p) (.processor p')
  | mount (h : MountHead) {ns ns' : List (Node σ L)} {ss ss' : List (Snapshooter σ L)} : NodesAlike rnd t ns ns' →
      SnapshootersAlike rnd t ss ss' → Node.Alike rnd t (.mount h ns ss) (.mount h ns' ss')
  | attached (h : MountHead) {ns ns' : List (Node σ L)} {ss ss' : List (Snapshooter σ L)}
      {inbox : List (Arrivals (Node σ L) (Snapshooter σ L))} : NodesAlike rnd t ns ns' →
      SnapshootersAlike rnd t ss ss' → RingsOk (instrumentsOfInbox inbox) → NoDriversIn inbox →
      Node.Alike rnd t (.attached h ns ss inbox) (.attached h ns' ss' inbox)
  | custom (s : σ) : Node.Alike rnd t (.custom s) (.custom s)

inductive NodesAlike (rnd : Rat → Rat) (t : Int) : List (Node σ L) → List (Node σ L) → Prop
  | nil : NodesAlike rnd t [] []
  | cons {n n' : Node σ L} {ns ns' : List (Node σ L)} : Node.Alike rnd t n n' → NodesAlike rnd t ns ns' →
      NodesAlike rnd t (n :: ns) (n' :: ns')
end

section
variable {rnd : Rat → Rat} {t t' : Int}

mutual
theorem Node.alike_refl (rnd : Rat → Rat) (t : Int) : ∀ {n : Node σ L}, RingsOk n.instruments → n.NoDriver → n.Alike rnd t n
  | .processor _, h, _ => .processor (Processor.alike_refl h)
  | .mount _ ns _, h, hd => .mount _ (nodesAlike_refl rnd t (ns := ns) (RingsOk.left h) hd)
    (snapshootersAlike_refl rnd t (RingsOk.right h))
  | .attached _ ns _ _, h, hd => .attached _ (nodesAlike_refl rnd t (ns := ns) (RingsOk.left h) hd.1)
    (snapshootersAlike_refl rnd t (RingsOk.left (RingsOk.right h))) (RingsOk.right (RingsOk.right h)) hd.2
  | .driver _, _, hd => False.elim hd
  | .custom _, _, _ => .custom _

theorem nodesAlike_refl (rnd : Rat → Rat) (t : Int) : ∀ {ns : List (Node σ L)}, RingsOk (instrumentsOfNodes ns) → NoDrivers ns →
    NodesAlike rnd t ns ns
  | [], _, _ => .nil
  | n :: ns, h, hd => .cons (Node.alike_refl rnd t (n := n) (RingsOk.left h) hd.1) (nodesAlike_refl rnd t (ns := ns) (RingsOk.right h) hd.2)
end

mutual
theorem Node.Alike.mono (ht : t ≤ t') : ∀ {n n' : Node σ L}, n.Alike rnd t n' → n.Alike rnd t' n'
  | _, _, .processor h => .processor (h.mono ht)
  | _, _, .mount _ h1 h2 => .mount _ (h1.mono ht) (h2.mono ht)
  | _, _, .attached _ h1 h2 h3 h4 => .attached _ (h1.mono ht) (h2.mono ht) h3 h4
  | _, _, .custom _ => .custom _

theorem NodesAlike.mono (ht : t ≤ t') : ∀ {ns ns' : List (Node σ L)}, NodesAlike rnd t ns ns' → NodesAlike rnd t' ns ns'
  | _, _, .nil => .nil
  | _, _, .cons h1 h2 => .cons (h1.mono ht) (h2.mono ht)
end

theorem NodesAlike.append : ∀ {a a' b b' : List (Node σ L)}, NodesAlike rnd t a a' → NodesAlike rnd t b b' →
    NodesAlike rnd t (a ++ b) (a' ++ b')
  | _, _, _, _, .nil, h => h
  | _, _, _, _, .cons h1 h2, h => .cons h1 (h2.append h)

end

/-- What is needed of user defined processors. -/
structure ProcessorsStillAt (σ : Type) [CustomProcessor σ] (e : Env) : Prop where
  process : ∀ (s : σ) max strategy, M.Sync e Eq (CustomProcessor.process s max strategy) (CustomProcessor.process s max strategy)
  put : ∀ (s : σ) into d,
    M.Sync e (fun a b => a = b ∧ a.1 = s) (CustomProcessor.putSnapshot s into d) (CustomProcessor.putSnapshot s into d)

theorem CustomProcessorStill.at [CustomProcessor σ] (h : CustomProcessorStill σ) (e : Env) (m : Nat) :
    ProcessorsStillAt σ (e.at m) where
  process s max strategy := .of_map (h.process e m s max strategy)
  put s into d := by
    intro k k'
    have h1 := h.putSnapshot e m s into d k k'
    have h2 := h.unchanged e m s into d k
    revert h1 h2
    cases CustomProcessor.putSnapshot s into d (e.at m) k <;> cases CustomProcessor.putSnapshot s into d (e.at m) k' <;> intro h1 h2
    · exact .none
    · cases h1
    · cases h1
    · exact .some ⟨Option.some.inj h1, h2 _ rfl⟩

section
variable [DecidableEq L] [Custom σ L] [CustomProcessor σ] {e : Env} {t : Int}

theorem sync_afterRun (hf : Frozen e t) (h : MountHead) (o : Outcome) : M.Sync e Eq (h.afterRun o) (h.afterRun o) :=
  .ite (.bindEq hf.now fun _ => .pure rfl) (.pure rfl)

mutual
theorem Node.Alike.process (hc : StillAt σ L e) (hp : ProcessorsStillAt σ e) (hf : Frozen e t) (max : Nat) (st : Strategy)
    (n : Node σ L) {n' : Node σ L} (h : n.Alike e.rnd t n') :
    M.Sync e (fun a b => a.2 = b.2 ∧ a.1.Alike e.rnd t b.1) (n.process max st) (n'.process max st) := by
  match n, h with
  | .processor p, .processor h =>
    unfold Node.process
    exact .bind _ (h.process hc hf max st) fun a b h => .pure ⟨h.1, .processor h.2⟩
  | .mount g ns ss, .mount _ h1 h2 =>
    unfold Node.process
    refine .bind _ (NodesAlike.process hc hp hf max st ns h1) ?_
    rintro ⟨a, o⟩ ⟨a', _⟩ ⟨rfl, h1⟩
    exact .bindEq (sync_afterRun hf _ _) fun g => .pure ⟨rfl, .mount _ h1 h2⟩
  | .attached g ns ss [], .attached _ h1 h2 h3 h4 =>
    unfold Node.process
    refine .bind _ (NodesAlike.process hc hp hf max st ns h1) ?_
    rintro ⟨a, o⟩ ⟨a', _⟩ ⟨rfl, h1⟩
    exact .bindEq (sync_afterRun hf _ _) fun g => .pure ⟨rfl, .attached _ h1 h2 h3 h4⟩
  | .attached g ns ss (⟨ps, ss', closed⟩ :: inbox), .attached _ h1 h2 h3 h4 =>
    unfold Node.process
    refine .bind _ (NodesAlike.process hc hp hf max st ns h1) ?_
    rintro ⟨a, o⟩ ⟨a', _⟩ ⟨rfl, h1⟩
    refine .bind _ (NodesAlike.process hc hp hf max st ps (nodesAlike_refl e.rnd t (RingsOk.left h3) h4.1)) ?_
    rintro ⟨b, o'⟩ ⟨b', _⟩ ⟨rfl, h1'⟩
    refine .bindEq (sync_afterRun hf _ _) fun g => .pure ⟨rfl, ?_⟩
    have hs := h2.append (snapshootersAlike_refl e.rnd t (RingsOk.left (RingsOk.right h3)))
    cases closed with
    | true => exact .attached _ (h1.append h1') hs (fun _ _ h => nomatch h) trivial
    | false => exact .attached _ (h1.append h1') hs (RingsOk.right (RingsOk.right h3)) h4.2
  | .custom s, .custom _ =>
    unfold Node.process
    exact .bindEq (hp.process s max st) fun _ => .pure ⟨rfl, .custom _⟩

theorem NodesAlike.process (hc : StillAt σ L e) (hp : ProcessorsStillAt σ e) (hf : Frozen e t) (max : Nat) (st : Strategy)
    (ns : List (Node σ L)) {ns' : List (Node σ L)} (h : NodesAlike e.rnd t ns ns') :
    M.Sync e (fun a b => a.2 = b.2 ∧ NodesAlike e.rnd t a.1 b.1) (processNodes max st ns) (processNodes max st ns') := by
  match ns, h with
  | [], .nil => exact .pure ⟨rfl, .nil⟩
  | n :: ns, .cons h1 h2 =>
    unfold processNodes
    refine .bind _ (Node.Alike.process hc hp hf max st n h1) ?_
    rintro ⟨a, o⟩ ⟨a', _⟩ ⟨rfl, h1⟩
    refine .bind _ (NodesAlike.process hc hp hf max st ns h2) ?_
    rintro ⟨b, o'⟩ ⟨b', _⟩ ⟨rfl, h2⟩
    exact .pure ⟨rfl, .cons h1 h2⟩
end

omit [DecidableEq L] in
mutual
theorem Node.Alike.put (hc : StillAt σ L e) (hp : ProcessorsStillAt σ e) (hf : Frozen e t) (d : Bool)
    (n : Node σ L) {n' : Node σ L} (h : n.Alike e.rnd t n') (into : Snapshot) :
    PutsSame e (Node.Alike e.rnd t) n' (n.putSnapshot d into) (n'.putSnapshot d into) := by
  match n, h with
  | .processor p, .processor h =>
    unfold Node.putSnapshot
    exact .bind _ (h.put hc hf into d) fun a b h => .pure ⟨h.1, .processor h.2.1, .processor h.2.2⟩
  | .mount g ns ss, .mount _ h1 h2 =>
    unfold Node.putSnapshot
    refine .bindEq (sync_putFlags hf _ _) fun f => .ite (.bind _ (NodesAlike.put hc hp hf d ns h1 f.2) ?_)
      (.pure ⟨rfl, .mount _ h1 h2, .mount _ h1 h2⟩)
    rintro ⟨a, s₁⟩ ⟨a', _⟩ ⟨rfl, h1, h1'⟩
    refine .bind _ (h2.put hc hf d s₁) ?_
    rintro ⟨a, s₂⟩ ⟨a', _⟩ ⟨rfl, h2, h2'⟩
    exact .pure ⟨rfl, .mount _ h1 h2, .mount _ h1' h2'⟩
  | .attached g ns ss inbox, .attached _ h1 h2 h3 h4 =>
    unfold Node.putSnapshot
    refine .bindEq (sync_putFlags hf _ _) fun f => .ite (.bind _ (NodesAlike.put hc hp hf d ns h1 f.2) ?_)
      (.pure ⟨rfl, .attached _ h1 h2 h3 h4, .attached _ h1 h2 h3 h4⟩)
    rintro ⟨a, s₁⟩ ⟨a', _⟩ ⟨rfl, h1, h1'⟩
    refine .bind _ (h2.put hc hf d s₁) ?_
    rintro ⟨a, s₂⟩ ⟨a', _⟩ ⟨rfl, h2, h2'⟩
    exact .pure ⟨rfl, .attached _ h1 h2 h3 h4, .attached _ h1' h2' h3 h4⟩
  | .custom s, .custom _ =>
    unfold Node.putSnapshot
    refine .bind _ (hp.put s into d) ?_
    rintro ⟨a, s₁⟩ _ ⟨rfl, h⟩
    obtain rfl : a = s := h
    exact .pure ⟨rfl, .custom _, .custom _⟩

theorem NodesAlike.put (hc : StillAt σ L e) (hp : ProcessorsStillAt σ e) (hf : Frozen e t) (d : Bool)
    (ns : List (Node σ L)) {ns' : List (Node σ L)} (h : NodesAlike e.rnd t ns ns') (into : Snapshot) :
    PutsSame e (NodesAlike e.rnd t) ns' (putNodes d ns into) (putNodes d ns' into) := by
  match ns, h with
  | [], .nil => exact .pure ⟨rfl, .nil, .nil⟩
  | n :: ns, .cons h1 h2 =>
    unfold putNodes
    refine .bind _ (Node.Alike.put hc hp hf d n h1 into) ?_
    rintro ⟨a, o⟩ ⟨a', _⟩ ⟨rfl, h1, h1'⟩
    refine .bind _ (NodesAlike.put hc hp hf d ns h2 o) ?_
    rintro ⟨b, o'⟩ ⟨b', _⟩ ⟨rfl, h2, h2'⟩
    exact .pure ⟨rfl, .cons h1 h2, .cons h1' h2'⟩
end

theorem Node.Alike.call (hc : StillAt σ L e) (hp : ProcessorsStillAt σ e) (hf : Frozen e t) {n n' : Node σ L}
    (h : n.Alike e.rnd t n') (c : NodeCall) :
    M.Sync e (fun a b => a.2 = b.2 ∧ a.1.Alike e.rnd t b.1) (n.call c) (n'.call c) := by
  cases c with
  | process max s =>
    exact .bind _ (h.process hc hp hf max s n) fun a b h => .pure ⟨by rw [h.1], h.2⟩
  | snapshot into d =>
    exact .bind _ (Node.Alike.put hc hp hf d n h into) fun a b h => .pure ⟨by rw [h.1], h.2.1⟩

end

end Metrix
