import Verif.Proof.Processing
import Verif.Proof.Liveness
import Verif.Proof.Forward
import Verif.Spec.Mount

/-! # Mounts: what one run does; what draining a channel does -/

namespace Metrix
variable {μ σ L : Type}

/-! ## Draining -/

namespace Channel

theorem outstanding_step (c : Channel μ) (t : Nat) : (c.step t).outstanding ≤ c.outstanding := by
  have hs := step_spec c t
  generalize c.step t = c' at hs
  cases hs with
  | nothing => exact Nat.le_refl _
  | drop th hth hh htd hd =>
    have := sum_set (th' := { th with holds := false }) hth; simp only at this; simp only [outstanding]; omega
  | accept th m rest hth hh htd hr hf =>
    have := sum_set (th' := { th with todo := rest }) hth
    rw [htd] at this; simp only [List.length_cons] at this
    simp only [outstanding, List.length_append, List.length_cons, List.length_nil]; omega
  | lose th m rest hth hh htd hr =>
    have := sum_set (th' := { th with todo := rest }) hth
    rw [htd] at this; simp only [List.length_cons] at this
    simp only [outstanding]; omega

theorem outstanding_run (c : Channel μ) (s : List Nat) : (c.run s).outstanding ≤ c.outstanding := by
  induction s generalizing c with
  | nil => exact Nat.le_refl _
  | cons t s ih => exact (ih (c.step t)).trans (outstanding_step c t)

end Channel

namespace Receiver

theorem outstanding_wait (r : Receiver μ) : r.wait.chan.outstanding ≤ r.chan.outstanding := by
  unfold wait
  split
  · exact Nat.le_refl _
  · exact Channel.outstanding_run _ _

theorem outstanding_tryRecv {r r' : Receiver μ} {m : μ} (h : r.tryRecv = (r', .ok m)) :
    r'.chan.outstanding + 1 ≤ r.chan.outstanding := by
  have hw := r.outstanding_wait
  unfold tryRecv at h
  simp only at h
  cases hq : r.wait.chan.queue with
  | nil => simp only [hq] at h; split at h <;> simp at h
  | cons x q =>
    obtain ⟨t, m'⟩ := x
    simp only [hq, Prod.mk.injEq, TryRecv.ok.injEq] at h
    obtain ⟨rfl, rfl⟩ := h
    simp only [Channel.outstanding, hq, List.length_cons] at hw
    simp only [Channel.take, hq, Channel.outstanding]; omega

/-- The loop ends before its bound is reached: the queue is empty, and `closed` tells if it will stay empty. -/
theorem drainWithin_spec (n : Nat) (r : Receiver μ) (hn : r.chan.outstanding < n) {r' : Receiver μ} {ms : List μ}
    {closed : Bool} (h : r.drainWithin n = (r', ms, closed)) :
    Took r.chan r'.chan ms ∧ r'.chan.queue = [] ∧ r'.chan.abandoned = closed := by
  induction n generalizing r r' ms closed with
  | zero => omega
  | succ n ih =>
    rw [drainWithin] at h
    rcases hr : r.tryRecv with ⟨r₁, x⟩
    rw [hr] at h
    cases x with
    | ok m =>
      rcases hd : r₁.drainWithin n with ⟨r₂, ms₂, closed₂⟩
      simp only [hd, Prod.mk.injEq] at h
      obtain ⟨rfl, rfl, rfl⟩ := h
      have hlt := outstanding_tryRecv hr
      obtain ⟨h1, h2, h3⟩ := ih r₁ (by omega) hd
      obtain ⟨s, t, ha, ht⟩ := tryRecv_ok hr
      refine ⟨Took.trans (ms := [m]) ⟨⟨_, ?_, ha⟩, ⟨[(t, m)], rfl, ht⟩⟩ h1, h2, h3⟩
      intro a ha'
      rcases List.mem_append.mp ha' with ha' | ha'
      · exact noDrop_threads s a ha'
      · simp at ha'; subst ha'; simp
    | empty =>
      simp only [Prod.mk.injEq] at h
      obtain ⟨rfl, rfl, rfl⟩ := h
      obtain ⟨h1, h2, h3⟩ := tryRecv_empty hr
      exact ⟨.threads h1, h2, h3⟩
    | disconnected =>
      simp only [Prod.mk.injEq] at h
      obtain ⟨rfl, rfl, rfl⟩ := h
      obtain ⟨h1, h2, h3⟩ := tryRecv_disconnected hr
      exact ⟨.threads h1, h2, h3⟩

theorem drain_ends (r : Receiver μ) {r' : Receiver μ} {ms : List μ} {closed : Bool} (h : r.drain = (r', ms, closed)) :
    Took r.chan r'.chan ms ∧ r'.chan.queue = [] ∧ r'.chan.abandoned = closed :=
  drainWithin_spec _ r (Nat.lt_succ_self _) h

end Receiver

/-! ## Processing -/

variable [DecidableEq L] [Custom σ L] [CustomProcessor σ]

theorem Outcome.isSum_nil : Outcome.IsSum {} [] := ⟨rfl, rfl, rfl, rfl⟩

theorem Outcome.IsSum.cons {o' : Outcome} {os : List Outcome} (o : Outcome) (h : o'.IsSum os) :
    (o.combineWith o').IsSum (o :: os) := by
  obtain ⟨h1, h2, h3, h4⟩ := h
  simp [IsSum, combineWith, h1, h2, h3, h4]

theorem Outcome.IsSum.append {a b : Outcome} {os os' : List Outcome} (h : a.IsSum os) (h' : b.IsSum os') :
    (a.combineWith b).IsSum (os ++ os') := by
  obtain ⟨h1, h2, h3, h4⟩ := h
  obtain ⟨g1, g2, g3, g4⟩ := h'
  simp [IsSum, combineWith, h1, h2, h3, h4, g1, g2, g3, g4]

theorem InTurn.weaken {e : Env} {max : Nat} {strategy : Strategy} {j k k' : Nat} {ns ns' : List (Node σ L)}
    {os : List Outcome} (h : InTurn e max strategy k ns ns' os k') (hj : j ≤ k) : InTurn e max strategy j ns ns' os k' := by
  cases h with
  | nil hk => exact .nil (hj.trans hk)
  | cons hk hp hr => exact .cons (hj.trans hk) hp hr

theorem InTurn.append {e : Env} {max : Nat} {strategy : Strategy} {k k₁ k' : Nat} {ns ns' ms ms' : List (Node σ L)}
    {os os' : List Outcome} (h : InTurn e max strategy k ns ns' os k₁) (h' : InTurn e max strategy k₁ ms ms' os' k') :
    InTurn e max strategy k (ns ++ ms) (ns' ++ ms') (os ++ os') k' := by
  induction h with
  | nil hk => exact h'.weaken hk
  | cons hk hp _ ih => exact .cons hk hp (ih h')

theorem InTurn.stop {e : Env} {max : Nat} {strategy : Strategy} {k k₁ k' : Nat} {ns ns' : List (Node σ L)}
    {os : List Outcome} (h : InTurn e max strategy k ns ns' os k₁) (hk : k₁ ≤ k') : InTurn e max strategy k ns ns' os k' := by
  have := h.append (.nil hk)
  simpa using this

theorem processNodes_inTurn {e : Env} {max : Nat} {strategy : Strategy} {ns ns' : List (Node σ L)} {o : Outcome}
    {k k' : Nat} (h : processNodes max strategy ns e k = some ((ns', o), k')) :
    ∃ os, InTurn e max strategy k ns ns' os k' ∧ o.IsSum os := by
  induction ns generalizing ns' o k with
  | nil =>
    simp only [processNodes, M.run_pure, Option.some.injEq, Prod.mk.injEq] at h
    obtain ⟨⟨rfl, rfl⟩, rfl⟩ := h
    exact ⟨[], .nil (Nat.le_refl _), Outcome.isSum_nil⟩
  | cons n ns ih =>
    simp only [processNodes, M.bind_eq_some, M.run_pure, Option.some.injEq, Prod.mk.injEq] at h
    obtain ⟨⟨n', o₁⟩, k₁, h1, ⟨ns₁, o₂⟩, k₂, h2, ⟨rfl, rfl⟩, rfl⟩ := h
    obtain ⟨os, h3, h4⟩ := ih h2
    exact ⟨o₁ :: os, .cons (Nat.le_refl _) h1 h3, h4.cons o₁⟩

theorem afterRun_spec {h h' : MountHead} {o : Outcome} {e : Env} {k k' : Nat} (hr : h.afterRun o e k = some (h', k')) :
    k ≤ k' ∧ h' = { h with lastActivity := if o.somethingHappened then e.clock k else h.lastActivity } := by
  unfold MountHead.afterRun at hr
  by_cases hs : o.somethingHappened = true
  · rw [if_pos hs] at hr
    simp only [M.bind_eq_some, M.run_now, M.run_pure, Option.some.injEq, Prod.mk.injEq] at hr
    obtain ⟨a, j, ⟨rfl, rfl⟩, rfl, rfl⟩ := hr
    rw [if_pos hs]; exact ⟨by omega, rfl⟩
  · rw [if_neg hs] at hr
    simp only [M.run_pure, Option.some.injEq, Prod.mk.injEq] at hr
    obtain ⟨rfl, rfl⟩ := hr
    rw [if_neg hs]; exact ⟨Nat.le_refl _, rfl⟩

theorem process_mount {e : Env} {max : Nat} {strategy : Strategy} {h : MountHead} {ns : List (Node σ L)}
    {ss : List (Snapshooter σ L)} {n' : Node σ L} {o : Outcome} {k k' : Nat}
    (hp : (Node.mount h ns ss).process max strategy e k = some ((n', o), k')) :
    ∃ ns' os k₁, InTurn e max strategy k ns ns' os k₁ ∧ k₁ ≤ k' ∧ o.IsSum os ∧
      n' = .mount { h with lastActivity := if o.somethingHappened then e.clock k₁ else h.lastActivity } ns' ss := by
  rw [Node.process] at hp
  simp only [M.bind_eq_some, M.run_pure, Option.some.injEq, Prod.mk.injEq] at hp
  obtain ⟨⟨ns₁, o₁⟩, k₁, h1, h', k₂, h2, ⟨rfl, rfl⟩, rfl⟩ := hp
  obtain ⟨os, h3, h4⟩ := processNodes_inTurn h1
  obtain ⟨h5, rfl⟩ := afterRun_spec h2
  exact ⟨ns₁, os, k₁, h3, h5, h4, rfl⟩

/-- The first entry of the inbox, as far as it matters. -/
def firstArrivals {N S : Type} : List (Arrivals N S) → Arrivals N S
  | [] => {}
  | a :: _ => a

/-- The inbox afterwards. -/
def laterArrivals {N S : Type} : List (Arrivals N S) → List (Arrivals N S)
  | [] => []
  | a :: inbox => if a.closed then [] else inbox

theorem process_attached {e : Env} {max : Nat} {strategy : Strategy} {h : MountHead} {ns : List (Node σ L)}
    {ss : List (Snapshooter σ L)} {inbox : List (Arrivals (Node σ L) (Snapshooter σ L))} {n' : Node σ L} {o : Outcome}
    {k k' : Nat} (hp : (Node.attached h ns ss inbox).process max strategy e k = some ((n', o), k')) :
    ∃ ns' os k₁, InTurn e max strategy k (ns ++ (firstArrivals inbox).processors) ns' os k₁ ∧ k₁ ≤ k' ∧ o.IsSum os ∧
      n' = .attached { h with lastActivity := if o.somethingHappened then e.clock k₁ else h.lastActivity } ns'
        (ss ++ (firstArrivals inbox).snapshooters) (laterArrivals inbox) := by
  cases inbox with
  | nil =>
    rw [Node.process] at hp
    simp only [M.bind_eq_some, M.run_pure, Option.some.injEq, Prod.mk.injEq] at hp
    obtain ⟨⟨ns₁, o₁⟩, k₁, h1, h', k₂, h2, ⟨rfl, rfl⟩, rfl⟩ := hp
    obtain ⟨os, h3, h4⟩ := processNodes_inTurn h1
    obtain ⟨h5, rfl⟩ := afterRun_spec h2
    exact ⟨ns₁, os, k₁, by simpa [firstArrivals] using h3, h5, h4, by simp [firstArrivals, laterArrivals]⟩
  | cons a inbox =>
    obtain ⟨ps, ss', closed⟩ := a
    rw [Node.process] at hp
    simp only [M.bind_eq_some, M.run_pure, Option.some.injEq, Prod.mk.injEq] at hp
    obtain ⟨⟨ns₁, o₁⟩, k₁, h1, ⟨ps₁, o₂⟩, k₂, h2, h', k₃, h3, ⟨rfl, rfl⟩, rfl⟩ := hp
    obtain ⟨os, h4, h5⟩ := processNodes_inTurn h1
    obtain ⟨os', h6, h7⟩ := processNodes_inTurn h2
    obtain ⟨h8, rfl⟩ := afterRun_spec h3
    exact ⟨ns₁ ++ ps₁, os ++ os', k₂, h4.append h6, h8, h5.append h7, rfl⟩

omit [DecidableEq L] [Custom σ L] [CustomProcessor σ] in
theorem leavesOfNodes_append (a b : List (Node σ L)) : leavesOfNodes (a ++ b) = leavesOfNodes a ++ leavesOfNodes b := by
  induction a with
  | nil => simp [leavesOfNodes]
  | cons n a ih => simp [leavesOfNodes, ih]

mutual
theorem process_leaves {e : Env} {max : Nat} {strategy : Strategy} (n : Node σ L) {n' : Node σ L} {o : Outcome} {k k' : Nat}
    (h : n.process max strategy e k = some ((n', o), k')) :
    ∃ os k₁, InTurn e max strategy k n.joined.leaves n'.leaves os k₁ ∧ k₁ ≤ k' ∧ o.IsSum os := by
  match n with
  | .processor p =>
    have h0 := h
    rw [Node.process] at h
    simp only [M.bind_eq_some, M.run_pure, Option.some.injEq, Prod.mk.injEq] at h
    obtain ⟨⟨p', o'⟩, k₁, h1, ⟨rfl, rfl⟩, rfl⟩ := h
    exact ⟨[o'], k₁, .cons (Nat.le_refl _) h0 (.nil (Nat.le_refl _)), Nat.le_refl _, by simp [Outcome.IsSum]⟩
  | .driver as =>
    have h0 := h
    rw [Node.process] at h
    simp only [M.run_pure, Option.some.injEq, Prod.mk.injEq] at h
    obtain ⟨⟨rfl, rfl⟩, rfl⟩ := h
    exact ⟨[{}], k, .cons (Nat.le_refl _) h0 (.nil (Nat.le_refl _)), Nat.le_refl _, by simp [Outcome.IsSum]⟩
  | .custom s =>
    have h0 := h
    rw [Node.process] at h
    simp only [M.bind_eq_some, M.run_pure, Option.some.injEq, Prod.mk.injEq] at h
    obtain ⟨⟨p', o'⟩, k₁, h1, ⟨rfl, rfl⟩, rfl⟩ := h
    exact ⟨[o'], k₁, .cons (Nat.le_refl _) h0 (.nil (Nat.le_refl _)), Nat.le_refl _, by simp [Outcome.IsSum]⟩
  | .mount hd ns ss =>
    rw [Node.process] at h
    simp only [M.bind_eq_some, M.run_pure, Option.some.injEq, Prod.mk.injEq] at h
    obtain ⟨⟨ns₁, o₁⟩, k₁, h1, h', k₂, h2, ⟨rfl, rfl⟩, rfl⟩ := h
    obtain ⟨os, h3, h4⟩ := processNodes_leaves ns h1
    exact ⟨os, k₁, by simpa [Node.joined, Node.leaves] using h3, (afterRun_spec h2).1, h4⟩
  | .attached hd ns ss [] =>
    rw [Node.process] at h
    simp only [M.bind_eq_some, M.run_pure, Option.some.injEq, Prod.mk.injEq] at h
    obtain ⟨⟨ns₁, o₁⟩, k₁, h1, h', k₂, h2, ⟨rfl, rfl⟩, rfl⟩ := h
    obtain ⟨os, h3, h4⟩ := processNodes_leaves ns h1
    exact ⟨os, k₁, by simpa [Node.joined, Node.leaves] using h3, (afterRun_spec h2).1, h4⟩
  | .attached hd ns ss (⟨ps, ss', closed⟩ :: inbox) =>
    rw [Node.process] at h
    simp only [M.bind_eq_some, M.run_pure, Option.some.injEq, Prod.mk.injEq] at h
    obtain ⟨⟨ns₁, o₁⟩, k₁, h1, ⟨ps₁, o₂⟩, k₂, h2, h', k₃, h3, ⟨rfl, rfl⟩, rfl⟩ := h
    obtain ⟨os, h4, h5⟩ := processNodes_leaves ns h1
    obtain ⟨os', h6, h7⟩ := processNodes_leaves ps h2
    refine ⟨os ++ os', k₂, ?_, (afterRun_spec h3).1, h5.append h7⟩
    rw [Node.joined, Node.leaves, Node.leaves, leavesOfNodes_append, leavesOfNodes_append]
    exact h4.append h6

theorem processNodes_leaves {e : Env} {max : Nat} {strategy : Strategy} (ns : List (Node σ L)) {ns' : List (Node σ L)}
    {o : Outcome} {k k' : Nat} (h : processNodes max strategy ns e k = some ((ns', o), k')) :
    ∃ os, InTurn e max strategy k (leavesOfNodes (joinedNodes ns)) (leavesOfNodes ns') os k' ∧ o.IsSum os := by
  match ns with
  | [] =>
    simp only [processNodes, M.run_pure, Option.some.injEq, Prod.mk.injEq] at h
    obtain ⟨⟨rfl, rfl⟩, rfl⟩ := h
    exact ⟨[], by simpa [joinedNodes, leavesOfNodes] using .nil (Nat.le_refl _), Outcome.isSum_nil⟩
  | n :: ns =>
    simp only [processNodes, M.bind_eq_some, M.run_pure, Option.some.injEq, Prod.mk.injEq] at h
    obtain ⟨⟨n', o₁⟩, k₁, h1, ⟨ns₁, o₂⟩, k₂, h2, ⟨rfl, rfl⟩, rfl⟩ := h
    obtain ⟨os, j, h3, hj, h4⟩ := process_leaves n h1
    obtain ⟨os', h5, h6⟩ := processNodes_leaves ns h2
    exact ⟨os ++ os', by simpa [joinedNodes, leavesOfNodes] using (h3.stop hj).append h5, h4.append h6⟩
end

/-! ## Snapshots -/

omit [DecidableEq L] [CustomProcessor σ] in
theorem putSnapshooters_each {e : Env} {d : Bool} {ss ss' : List (Snapshooter σ L)} {into into' : Snapshot} {k k' : Nat}
    (h : putSnapshooters d ss into e k = some ((ss', into'), k')) :
    List.Forall₂ (fun s s' => ∃ i i' j j', s.putSnapshot d i e j = some ((s', i'), j')) ss ss' := by
  induction ss generalizing ss' into k with
  | nil =>
    simp only [putSnapshooters, M.run_pure, Option.some.injEq, Prod.mk.injEq] at h
    obtain ⟨⟨rfl, rfl⟩, rfl⟩ := h; exact .nil
  | cons s ss ih =>
    simp only [putSnapshooters, M.bind_eq_some, M.run_pure, Option.some.injEq, Prod.mk.injEq] at h
    obtain ⟨⟨s₁, i₁⟩, k₁, h1, ⟨ss₁, i₂⟩, k₂, h2, ⟨rfl, rfl⟩, rfl⟩ := h
    exact .cons ⟨_, _, _, _, h1⟩ (ih h2)

omit [DecidableEq L] in
theorem putNodes_each {e : Env} {d : Bool} {ns ns' : List (Node σ L)} {into into' : Snapshot} {k k' : Nat}
    (h : putNodes d ns into e k = some ((ns', into'), k')) :
    List.Forall₂ (fun n n' => ∃ i i' j j', n.putSnapshot d i e j = some ((n', i'), j')) ns ns' := by
  induction ns generalizing ns' into k with
  | nil =>
    simp only [putNodes, M.run_pure, Option.some.injEq, Prod.mk.injEq] at h
    obtain ⟨⟨rfl, rfl⟩, rfl⟩ := h; exact .nil
  | cons s ss ih =>
    simp only [putNodes, M.bind_eq_some, M.run_pure, Option.some.injEq, Prod.mk.injEq] at h
    obtain ⟨⟨s₁, i₁⟩, k₁, h1, ⟨ss₁, i₂⟩, k₂, h2, ⟨rfl, rfl⟩, rfl⟩ := h
    exact .cons ⟨_, _, _, _, h1⟩ (ih h2)

theorem forall₂_refl {α : Type} {R : α → α → Prop} (hR : ∀ a, R a a) (l : List α) : List.Forall₂ R l l := by
  induction l with
  | nil => exact .nil
  | cons a l ih => exact .cons (hR a) ih

theorem forall₂_comp {α : Type} {R S T : α → α → Prop} (hT : ∀ a b c, R a b → S b c → T a c) {l m n : List α}
    (h : List.Forall₂ R l m) (h' : List.Forall₂ S m n) : List.Forall₂ T l n := by
  induction h generalizing n with
  | nil => cases h'; exact .nil
  | cons hab _ ih => cases h' with | cons hbc ht => exact .cons (hT _ _ _ hab hbc) (ih ht)

/-- A snapshot of an attached mount does not touch the inbox. -/
theorem put_attached {e : Env} {d : Bool} {h : MountHead} {ns : List (Node σ L)} {ss : List (Snapshooter σ L)}
    {inbox : List (Arrivals (Node σ L) (Snapshooter σ L))} {into into' : Snapshot} {n' : Node σ L} {k k' : Nat}
    (hp : (Node.attached h ns ss inbox).putSnapshot d into e k = some ((n', into'), k')) :
    ∃ ns' ss', n' = .attached h ns' ss' inbox ∧ List.Forall₂ (Node.Became e) ns ns' ∧
      List.Forall₂ (Snapshooter.Became e) ss ss' := by
  rw [Node.putSnapshot] at hp
  simp only [M.bind_eq_some] at hp
  obtain ⟨⟨go, level⟩, k₁, h1, h2⟩ := hp
  cases go with
  | false =>
    simp only [Bool.false_eq_true, if_false, M.run_pure, Option.some.injEq, Prod.mk.injEq] at h2
    obtain ⟨⟨rfl, rfl⟩, rfl⟩ := h2
    exact ⟨ns, ss, rfl, forall₂_refl (fun _ => .refl) _, forall₂_refl (fun _ => .refl) _⟩
  | true =>
    simp only [if_true, M.bind_eq_some, M.run_pure, Option.some.injEq, Prod.mk.injEq] at h2
    obtain ⟨⟨ns', l₁⟩, k₂, h3, ⟨ss', l₂⟩, k₃, h4, ⟨rfl, rfl⟩, rfl⟩ := h2
    refine ⟨ns', ss', rfl, (putNodes_each h3).imp ?_, (putSnapshooters_each h4).imp ?_⟩
    · rintro a b ⟨_, _, _, _, hab⟩; exact .snapshot .refl hab
    · rintro a b ⟨_, _, _, _, hab⟩; exact .snapshot .refl hab

theorem InTurn.became {e : Env} {max : Nat} {strategy : Strategy} {k k' : Nat} {ns ns' : List (Node σ L)}
    {os : List Outcome} (h : InTurn e max strategy k ns ns' os k') : List.Forall₂ (Node.Became e) ns ns' := by
  induction h with
  | nil => exact .nil
  | cons _ hp _ ih => exact .cons (.run .refl hp) ih

theorem Node.Became.trans {e : Env} {a b c : Node σ L} (h : a.Became e b) (h' : b.Became e c) : a.Became e c := by
  induction h' with
  | refl => exact h
  | run _ hp ih => exact .run ih hp
  | snapshot _ hp ih => exact .snapshot ih hp

omit [DecidableEq L] [CustomProcessor σ] in
theorem Snapshooter.Became.trans {e : Env} {a b c : Snapshooter σ L} (h : a.Became e b) (h' : b.Became e c) :
    a.Became e c := by
  induction h' with
  | refl => exact h
  | snapshot _ hp ih => exact .snapshot ih hp

end Metrix
