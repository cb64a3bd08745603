import Verif.Spec.Arranged
import Verif.Proof.ReorderProcessor
import Verif.Proof.UndisturbedRun

/-! Processors that are arranged in another way do the same and show the same. -/

namespace Metrix
variable {σ L : Type} {e : Env} {t : Int}

theorem Outcome.combine_empty (o : Outcome) : o.combineWith {} = o := rfl

theorem Outcome.empty_combine (o : Outcome) : Outcome.combineWith {} o = o := by
  simp [Outcome.combineWith]

theorem Outcome.combine_comm (a b : Outcome) : a.combineWith b = b.combineWith a := by
  simp [Outcome.combineWith, Nat.add_comm]

theorem Outcome.combine_assoc (a b c : Outcome) : (a.combineWith b).combineWith c = a.combineWith (b.combineWith c) := by
  simp [Outcome.combineWith, Nat.add_assoc]

/-! ## Reflexivity -/

theorem Processor.Reordered.refl (p : Processor σ L) : p.Reordered p := ⟨rfl, rfl, .refl _⟩

mutual
theorem Node.Reordered.refl : ∀ n : Node σ L, n.Reordered n
  | .processor p => .processor (.refl p)
  | .mount h ns ss => .mount h (NodesReordered.refl ns) (.refl ss)
  | .attached h ns ss inbox => .attached h inbox (NodesReordered.refl ns) (.refl ss)
  | .driver as => .driver as
  | .custom s => .custom s
theorem NodesReordered.refl : ∀ ns : List (Node σ L), NodesReordered ns ns
  | [] => .nil
  | n :: ns => .cons (Node.Reordered.refl n) (NodesReordered.refl ns)
end

theorem NodesReordered.prepend : ∀ (ps : List (Node σ L)) {qs qs' : List (Node σ L)}, NodesReordered qs qs' →
    NodesReordered (ps ++ qs) (ps ++ qs')
  | [], _, _, h => h
  | p :: ps, _, _, h => .cons (.refl p) (NodesReordered.prepend ps h)

theorem NodesReordered.append {ps ps' qs qs' : List (Node σ L)} (h : NodesReordered ps ps') (hq : NodesReordered qs qs') :
    NodesReordered (ps ++ qs) (ps' ++ qs') :=
  match h with
  | .nil => hq
  | .cons h1 h2 => .cons h1 (h2.append hq)
  | .swap h1 h2 h3 => .swap h1 h2 (h3.append hq)
  | .mount hg h1 h2 => by
    rw [List.append_assoc]
    exact .mount hg h1 (h2.append hq)
  | .symm h1 => .trans (.symm (h1.append (.refl qs))) (.prepend _ hq)
  | .trans h1 h2 => .trans (h1.append hq) (h2.append (.refl qs'))

/-! ## Processors -/

section
variable [DecidableEq L] [Custom σ L]

theorem Processor.Reordered.receiveLoop (hc : StillAt σ L e) (hf : Frozen e t) (dec : Decider) (n : Nat) (ta : Tally) {p p' : Processor σ L}
    (h : p.Reordered p') :
    M.Sync e (fun a b => a.1.Reordered b.1 ∧ a.2 = b.2) (p.receiveLoop dec n ta) (p'.receiveLoop dec n ta) := by
  induction n generalizing p p' ta with
  | zero => exact .pure ⟨h, rfl⟩
  | succ n ih =>
    unfold Processor.receiveLoop
    obtain ⟨h1, h2, h3⟩ := h
    rw [h1]
    rcases hr : p'.receiver.tryRecv with ⟨r, x⟩
    cases x with
    | ok m =>
      refine .bind _ (h3.receive hc hf dec ta (.refl m)) ?_
      rintro ⟨a, n₁⟩ ⟨a', _⟩ ⟨h3, rfl⟩
      exact ih _ ⟨rfl, h2, h3⟩
    | empty => exact ih _ ⟨rfl, h2, h3⟩
    | disconnected => exact .pure ⟨⟨rfl, rfl, h3⟩, rfl⟩

theorem Processor.Reordered.process (hc : StillAt σ L e) (hf : Frozen e t) {p p' : Processor σ L} (h : p.Reordered p') (max : Nat)
    (strategy : Strategy) :
    M.Sync e (fun a b => a.1.Reordered b.1 ∧ a.2 = b.2) (p.process max strategy) (p'.process max strategy) := by
  unfold Processor.process
  rw [h.isDisconnected]
  refine .ite (.pure ⟨h, rfl⟩) (.bindEq (sync_decider hf strategy) fun dec => ?_)
  refine .bind _ (h.receiveLoop hc hf dec max {}) ?_
  rintro ⟨q, ta⟩ ⟨q', _⟩ ⟨⟨h1, h2, h3⟩, rfl⟩
  dsimp only at h1 h2 h3 ⊢
  rw [h1]
  refine .ite (.bindEq hf.now fun now => .pure ⟨⟨rfl, h2, ?_⟩, rfl⟩) (.pure ⟨⟨rfl, h2, h3⟩, rfl⟩)
  exact h3.activeAt now

omit [DecidableEq L] in
theorem Processor.Reordered.put [DecidableEq L] (hc : StillAt σ L e) (ha : CustomFrames σ L) (hf : Frozen e t) {p p' : Processor σ L} (h : p.Reordered p')
    (s s' : Snapshot) : PutsReordered e s s' (p.putSnapshot s false) (p'.putSnapshot s' false) :=
  .bind _ (h.state.put hc ha hf s s') fun _ _ h => .pure h
end

/-! ## Mounts that only group -/

theorem MountHead.Plain.afterRunLeft {α β : Type} {T : α → β → Prop} {g : MountHead} (hg : g.Plain) (o : Outcome) {f : MountHead → M α} {y : M β}
    (h : ∀ g' : MountHead, g'.Plain → M.Sync e T (f g') y) : M.Sync e T (g.afterRun o >>= f) y := by
  unfold MountHead.afterRun
  split
  · rw [bind_assoc]
    exact .nowLeft fun now => by rw [pure_bind]; exact h _ ⟨hg.name, hg.limit⟩
  · rw [pure_bind]; exact h g hg

section
variable [DecidableEq L] [Custom σ L] [CustomProcessor σ]

theorem processNodes_append (max : Nat) (st : Strategy) (ps qs : List (Node σ L)) :
    processNodes max st (ps ++ qs) =
      processNodes max st ps >>= fun a => processNodes max st qs >>= fun b => pure (a.1 ++ b.1, a.2.combineWith b.2) := by
  induction ps with
  | nil =>
    simp only [List.nil_append, processNodes, pure_bind, Outcome.empty_combine]
    exact (bind_pure _).symm
  | cons p ps ih => simp only [List.cons_append, processNodes, ih, bind_assoc, pure_bind, Outcome.combine_assoc]

omit [DecidableEq L] in
theorem putNodes_eq (d : Bool) (ps : List (Node σ L)) (s : Snapshot) : putNodes d ps s = putAll (Node.putSnapshot d) ps s := by
  induction ps generalizing s with
  | nil => rw [putNodes, putAll]
  | cons p ps ih => simp only [putNodes, putAll, ih]

omit [DecidableEq L] in
theorem putNodes_append (d : Bool) (ps qs : List (Node σ L)) (s : Snapshot) :
    putNodes d (ps ++ qs) s = putNodes d ps s >>= fun a => putNodes d qs a.2 >>= fun b => pure (a.1 ++ b.1, b.2) := by
  simp only [putNodes_eq, putAll_append]

omit [DecidableEq L] in
theorem put_mountGroup {g : MountHead} (hg : g.Plain) (ks : List (Node σ L)) (ts : List (Snapshooter σ L)) (s : Snapshot) :
    (Node.mount g ks ts).putSnapshot false s =
      putNodes false ks s >>= fun r => putSnapshooters false ts r.2 >>= fun r' => pure (.mount g r.1 r'.1, r'.2) := by
  rw [Node.putSnapshot]
  have : g.activity.maxInactivity = none := hg.limit
  simp only [hg.name, levelFor, putDefaultDescriptives, Bool.false_eq_true, if_false, putFlags_unlimited this, pure_bind, if_true, closeLevel]

/-! ## Runs -/

section
variable (hc : StillAt σ L e) (hp : ProcessorsStillAt σ e) (hf : Frozen e t) (max : Nat) (st : Strategy)
include hc hp hf

mutual
theorem Node.process_again : ∀ n : Node σ L,
    M.Sync e (fun a b => a.1.Reordered b.1 ∧ a.2 = b.2) (n.process max st) (n.process max st)
  | .processor p => by
    rw [Node.process]
    exact .bind _ ((Processor.Reordered.refl p).process hc hf max st) fun a b h => .pure ⟨.processor h.1, h.2⟩
  | .mount g ns ss => by
    have l1 := processNodes_again ns
    rw [Node.process]
    refine .bind _ l1 ?_
    rintro ⟨a, o⟩ ⟨a', _⟩ ⟨h1, rfl⟩
    exact .bindEq (sync_afterRun hf _ _) fun g => .pure ⟨.mount g h1 (.refl ss), rfl⟩
  | .attached g ns ss [] => by
    have l1 := processNodes_again ns
    rw [Node.process]
    refine .bind _ l1 ?_
    rintro ⟨a, o⟩ ⟨a', _⟩ ⟨h1, rfl⟩
    exact .bindEq (sync_afterRun hf _ _) fun g => .pure ⟨.attached g [] h1 (.refl ss), rfl⟩
  | .attached g ns ss (⟨ps, ss', closed⟩ :: inbox) => by
    have l1 := processNodes_again ns
    have l2 := processNodes_again ps
    rw [Node.process]
    refine .bind _ l1 ?_
    rintro ⟨a, o⟩ ⟨a', _⟩ ⟨h1, rfl⟩
    refine .bind _ l2 ?_
    rintro ⟨b, o'⟩ ⟨b', _⟩ ⟨h3, rfl⟩
    exact .bindEq (sync_afterRun hf _ _) fun g => .pure ⟨.attached g _ (h1.append h3) (.refl _), rfl⟩
  | .driver as => by
    rw [Node.process]
    exact .pure ⟨.driver as, rfl⟩
  | .custom s => by
    rw [Node.process]
    exact .bindEq (hp.process s max st) fun _ => .pure ⟨.custom _, rfl⟩

theorem processNodes_again : ∀ ns : List (Node σ L),
    M.Sync e (fun a b => NodesReordered a.1 b.1 ∧ a.2 = b.2) (processNodes max st ns) (processNodes max st ns)
  | [] => by
    rw [processNodes]
    exact .pure ⟨.nil, rfl⟩
  | n :: ns => by
    have l1 := Node.process_again n
    have l2 := processNodes_again ns
    rw [processNodes]
    refine .bind _ l1 ?_
    rintro ⟨a, o⟩ ⟨a', _⟩ ⟨h1, rfl⟩
    refine .bind _ l2 ?_
    rintro ⟨b, o'⟩ ⟨b', _⟩ ⟨h2, rfl⟩
    exact .pure ⟨.cons h1 h2, rfl⟩
end

mutual
theorem Node.Reordered.process : ∀ {n n' : Node σ L}, n.Reordered n' →
    M.Sync e (fun a b => a.1.Reordered b.1 ∧ a.2 = b.2) (n.process max st) (n'.process max st)
  | _, _, .processor h => by
    rw [Node.process, Node.process]
    exact .bind _ (h.process hc hf max st) fun a b h => .pure ⟨.processor h.1, h.2⟩
  | _, _, .mount g h1 h2 => by
    have l1 := NodesReordered.process h1
    rw [Node.process, Node.process]
    refine .bind _ l1 ?_
    rintro ⟨a, o⟩ ⟨a', _⟩ ⟨h1, rfl⟩
    exact .bindEq (sync_afterRun hf _ _) fun g => .pure ⟨.mount g h1 h2, rfl⟩
  | _, _, .ungroup hg h1 h2 h3 h4 => by
    have l1 := NodesReordered.process h1
    have l2 := NodesReordered.process h2
    rw [Node.process, Node.process]
    simp only [processNodes_append, processNodes, Node.process, bind_assoc, pure_bind]
    refine .bind _ l1 ?_
    rintro ⟨a, o⟩ ⟨a', _⟩ ⟨h1, rfl⟩
    refine hg.afterRunLeft _ fun g hg => ?_
    refine .bind _ l2 ?_
    rintro ⟨b, o'⟩ ⟨b', _⟩ ⟨h2, rfl⟩
    exact .bindEq (sync_afterRun hf _ _) fun h => .pure ⟨.ungroup hg h1 h2 h3 h4, rfl⟩
  | _, _, .attached g [] h1 h2 => by
    have l1 := NodesReordered.process h1
    rw [Node.process, Node.process]
    refine .bind _ l1 ?_
    rintro ⟨a, o⟩ ⟨a', _⟩ ⟨h1, rfl⟩
    exact .bindEq (sync_afterRun hf _ _) fun g => .pure ⟨.attached g [] h1 h2, rfl⟩
  | _, _, .attached g (⟨ps, ss', closed⟩ :: inbox) h1 h2 => by
    have l1 := NodesReordered.process h1
    have l2 : M.Sync e (fun a b => NodesReordered a.1 b.1 ∧ a.2 = b.2) (processNodes max st ps) (processNodes max st ps) :=
      processNodes_again hc hp hf max st ps
    rw [Node.process, Node.process]
    refine .bind _ l1 ?_
    rintro ⟨a, o⟩ ⟨a', _⟩ ⟨h1, rfl⟩
    refine .bind _ l2 ?_
    rintro ⟨b, o'⟩ ⟨b', _⟩ ⟨h3, rfl⟩
    exact .bindEq (sync_afterRun hf _ _) fun g => .pure ⟨.attached g _ (h1.append h3) (h2.append (.refl ss')), rfl⟩
  | _, _, .driver as => by
    rw [Node.process]
    exact .pure ⟨.driver as, rfl⟩
  | _, _, .custom s => by
    rw [Node.process]
    exact .bindEq (hp.process s max st) fun _ => .pure ⟨.custom _, rfl⟩
  | _, _, .symm h => (Node.Reordered.process h).symm.mono fun _ _ h => ⟨.symm h.1, h.2.symm⟩
  | _, _, .trans h1 h2 => (Node.Reordered.process h1).trans (Node.Reordered.process h2) fun _ _ _ h h' => ⟨.trans h.1 h'.1, h.2.trans h'.2⟩

theorem NodesReordered.process : ∀ {ns ns' : List (Node σ L)}, NodesReordered ns ns' →
    M.Sync e (fun a b => NodesReordered a.1 b.1 ∧ a.2 = b.2) (processNodes max st ns) (processNodes max st ns')
  | _, _, .nil => by
    rw [processNodes]
    exact .pure ⟨.nil, rfl⟩
  | _, _, .cons h1 h2 => by
    have l1 := Node.Reordered.process h1
    have l2 := NodesReordered.process h2
    rw [processNodes, processNodes]
    refine .bind _ l1 ?_
    rintro ⟨a, o⟩ ⟨a', _⟩ ⟨h1, rfl⟩
    refine .bind _ l2 ?_
    rintro ⟨b, o'⟩ ⟨b', _⟩ ⟨h2, rfl⟩
    exact .pure ⟨.cons h1 h2, rfl⟩
  | _, _, .swap h1 h2 h3 => by
    have l1 := Node.Reordered.process h1
    have l2 := Node.Reordered.process h2
    have l3 := NodesReordered.process h3
    simp only [processNodes, bind_assoc, pure_bind]
    refine .comm l1 l2 ?_
    rintro ⟨a, o⟩ ⟨a', _⟩ ⟨b, o'⟩ ⟨b', _⟩ ⟨h1, rfl⟩ ⟨h2, rfl⟩
    refine .bind _ l3 ?_
    rintro ⟨c, o''⟩ ⟨c', _⟩ ⟨h3, rfl⟩
    refine .pure ⟨.swap h1 h2 h3, ?_⟩
    dsimp only
    rw [← Outcome.combine_assoc, ← Outcome.combine_assoc, Outcome.combine_comm o o']
  | _, _, .mount hg h1 h2 => by
    have l1 := NodesReordered.process h1
    have l2 := NodesReordered.process h2
    simp only [processNodes_append, processNodes, Node.process, bind_assoc, pure_bind]
    refine .bind _ l1 ?_
    rintro ⟨a, o⟩ ⟨a', _⟩ ⟨h1, rfl⟩
    refine hg.afterRunLeft _ fun g hg => ?_
    refine .bind _ l2 ?_
    rintro ⟨b, o'⟩ ⟨b', _⟩ ⟨h2, rfl⟩
    exact .pure ⟨.mount hg h1 h2, rfl⟩
  | _, _, .symm h => (NodesReordered.process h).symm.mono fun _ _ h => ⟨.symm h.1, h.2.symm⟩
  | _, _, .trans h1 h2 => (NodesReordered.process h1).trans (NodesReordered.process h2) fun _ _ _ h h' => ⟨.trans h.1 h'.1, h.2.trans h'.2⟩
end
end

/-! ## Snapshots -/

theorem reordered_customProcessor (hp : ProcessorsStillAt σ e) (ha : CustomProcessorFrames σ) (x : σ) (s s' : Snapshot) :
    PutsReordered e s s' (CustomProcessor.putSnapshot x s false) (CustomProcessor.putSnapshot x s' false) := by
  intro k k'
  rw [ha x s e k, ha x s' e k']
  have := hp.put x [] false k k'
  revert this
  cases CustomProcessor.putSnapshot x [] false e k <;> cases CustomProcessor.putSnapshot x [] false e k' <;> intro this
  · exact .none
  · cases this
  · cases this
  · cases this with
    | some h => exact .some (.of_same ⟨_, rfl, by rw [h.1]⟩)

section
variable (hc : StillAt σ L e) (hp : ProcessorsStillAt σ e) (ha : CustomFrames σ L) (hq : CustomProcessorFrames σ) (hf : Frozen e t)
include hc hp ha hq hf

mutual
theorem Node.Reordered.put : ∀ {n n' : Node σ L}, n.Reordered n' → ∀ (s s' : Snapshot),
    PutsReordered e s s' (n.putSnapshot false s) (n'.putSnapshot false s')
  | _, _, .processor h, s, s' => by
    rw [Node.putSnapshot, Node.putSnapshot]
    exact .bind _ (h.put hc ha hf s s') fun _ _ h => .pure h
  | _, _, .mount g h1 h2, s, s' => by
    have l1 := NodesReordered.put h1
    rw [Node.putSnapshot, Node.putSnapshot]
    refine .bind _ (also_putFlags hf g.activity (levelFor g.name s) (levelFor g.name s')) ?_
    rintro ⟨go, l⟩ ⟨_, l'⟩ ⟨rfl, hl⟩
    have hl := AddsReordered.of_same hl
    refine .ite (.bind _ (l1 l l') ?_) (.pure (.closeLevel _ hl))
    rintro ⟨b, s₂⟩ ⟨b', s₂'⟩ m2
    refine .bind _ (h2.put hc ha hf s₂ s₂') ?_
    rintro ⟨d, s₃⟩ ⟨d', s₃'⟩ m3
    exact .pure (.closeLevel _ ((hl.andThen m2).andThen m3))
  | _, _, .ungroup (h := h) (g := g) (ss := ss) (ss' := ss') hg h1 h2 h3 h4, s, s' => by
    have l1 := NodesReordered.put h1
    have l2 := NodesReordered.put h2
    rw [Node.putSnapshot, Node.putSnapshot]
    refine .bind _ (also_putFlags hf h.activity (levelFor h.name s) (levelFor h.name s')) ?_
    rintro ⟨go, l⟩ ⟨_, l'⟩ ⟨rfl, hl⟩
    have hl := AddsReordered.of_same hl
    refine .ite ?_ (.pure (.closeLevel _ hl))
    simp only [putNodes_append, putSnapshooters_append, putNodes, put_mountGroup hg, bind_assoc, pure_bind]
    refine .bind _ (l1 l l') ?_
    rintro ⟨x, s₁⟩ ⟨x', s₁'⟩ m1
    refine PutsReordered.comm (fun s s' => h4.put hc ha hf s s') l2
      (f := fun c d u => putSnapshooters false ss u >>= fun r => pure (Node.mount h (Node.mount g x c :: d) r.1, closeLevel h.name s r.2))
      (g := fun c d u => putSnapshooters false ss' u >>= fun r => pure (Node.mount h (x' ++ d) (c ++ r.1), closeLevel h.name s' r.2)) ?_
    intro c c' d d' u u' hu
    refine .bind _ (h3.put hc ha hf u u') ?_
    rintro ⟨y, s₄⟩ ⟨y', s₄'⟩ m4
    exact .pure (.closeLevel _ (((hl.andThen m1).andThen hu).andThen m4))
  | _, _, .attached g inbox h1 h2, s, s' => by
    have l1 := NodesReordered.put h1
    rw [Node.putSnapshot, Node.putSnapshot]
    refine .bind _ (also_putFlags hf g.activity (levelFor g.name s) (levelFor g.name s')) ?_
    rintro ⟨go, l⟩ ⟨_, l'⟩ ⟨rfl, hl⟩
    have hl := AddsReordered.of_same hl
    refine .ite (.bind _ (l1 l l') ?_) (.pure (.closeLevel _ hl))
    rintro ⟨b, s₂⟩ ⟨b', s₂'⟩ m2
    refine .bind _ (h2.put hc ha hf s₂ s₂') ?_
    rintro ⟨d, s₃⟩ ⟨d', s₃'⟩ m3
    exact .pure (.closeLevel _ ((hl.andThen m2).andThen m3))
  | _, _, .driver as, s, s' => by
    rw [Node.putSnapshot, Node.putSnapshot]
    refine .pure ?_
    cases as with
    | nil => exact .refl _ _
    | cons a as =>
      show AddsReordered s s' (putAnswer false (a :: as) s).2 (putAnswer false (a :: as) s').2
      simp only [putAnswer]
      cases a false with
      | none => exact .refl _ _
      | some r => exact .of_same ⟨r, rfl, rfl⟩
  | _, _, .custom x, s, s' => by
    rw [Node.putSnapshot, Node.putSnapshot]
    exact .bind _ (reordered_customProcessor hp hq x s s') fun _ _ h => .pure h
  | _, _, .symm h, s, s' => (Node.Reordered.put h s' s).symm.mono fun _ _ h => h.symm
  | _, _, .trans h1 h2, s, s' => by
    have l1 := Node.Reordered.put h1
    have l2 := Node.Reordered.put h2
    exact puts_trans (l1 s s') (l2 s' s')

theorem NodesReordered.put : ∀ {ns ns' : List (Node σ L)}, NodesReordered ns ns' → ∀ (s s' : Snapshot),
    PutsReordered e s s' (putNodes false ns s) (putNodes false ns' s')
  | _, _, .nil, s, s' => by rw [putNodes, putNodes]; exact .pure (.refl _ _)
  | _, _, .cons h1 h2, s, s' => by
    have l1 := Node.Reordered.put h1
    have l2 := NodesReordered.put h2
    simp only [putNodes_eq] at l2 ⊢
    exact putAll_cons (l1 s s') l2
  | _, _, .swap h1 h2 h3, s, s' => by
    have l1 := Node.Reordered.put h1
    have l2 := Node.Reordered.put h2
    have l3 := NodesReordered.put h3
    simp only [putNodes_eq] at l3 ⊢
    exact putAll_swap l1 l2 l3
  | _, _, .mount hg h1 h2, s, s' => by
    have l1 := NodesReordered.put h1
    have l2 := NodesReordered.put h2
    simp only [putNodes_append, putNodes, put_mountGroup hg, putSnapshooters, bind_assoc, pure_bind]
    refine .bind _ (l1 s s') ?_
    rintro ⟨x, s₅⟩ ⟨x', s₅'⟩ m5
    refine .bind _ (l2 s₅ s₅') ?_
    rintro ⟨y, s₆⟩ ⟨y', s₆'⟩ m6
    exact .pure (m5.andThen m6)
  | _, _, .symm h, s, s' => (NodesReordered.put h s' s).symm.mono fun _ _ h => h.symm
  | _, _, .trans h1 h2, s, s' => by
    have l1 := NodesReordered.put h1
    have l2 := NodesReordered.put h2
    simp only [putNodes_eq] at l1 l2 ⊢
    exact putAll_trans l1 l2
end
end
end

end Metrix
