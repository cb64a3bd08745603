import Verif.Spec.Delivery
import Verif.Proof.Driver
import Verif.Proof.Exhibits

/-! # Processors within mounts and drivers -/

namespace Metrix
variable {σ L : Type} [DecidableEq L] [Custom σ L]

theorem Life.le (hc : CustomForward σ L) {e : Env} {k k' : Nat} {p p' : Processor σ L} {log : List (Called σ L)}
    (h : Life e k p log k' p') : k ≤ k' := by
  induction h with
  | nil h => exact h
  | @cons k k₁ k₂ k' p p₁ p' c r log h1 h2 h3 ih =>
    have : k₁ ≤ k₂ := by
      cases c with
      | process max s =>
        simp only [Processor.call, M.bind_eq_some, M.run_pure, Option.some.injEq, Prod.mk.injEq] at h2
        obtain ⟨_, _, h, _, rfl⟩ := h2
        exact (Processor.fwd_process hc _ _ _).le h
      | snapshot into d =>
        simp only [Processor.call, Processor.putSnapshot, M.bind_eq_some, M.run_pure, Option.some.injEq, Prod.mk.injEq] at h2
        obtain ⟨_, _, ⟨_, _, h, _, rfl⟩, _, rfl⟩ := h2
        exact (ProcessorState.fwd_putSnapshot hc _ _ _).le h
      | _ =>
        simp only [Processor.call, M.run_pure, Option.some.injEq, Prod.mk.injEq] at h2
        omega
    omega

theorem Life.weaken {e : Env} {j k k' j' : Nat} {p p' : Processor σ L} {log : List (Called σ L)}
    (h : Life e k p log k' p') (hj : j ≤ k) (hj' : k' ≤ j') : Life e j p log j' p' := by
  induction h generalizing j with
  | nil h => exact .nil (by omega)
  | cons h1 h2 h3 ih => exact .cons (by omega) h2 (ih (Nat.le_refl _) hj')

theorem Life.trans {e : Env} {k k₁ k' : Nat} {p p₁ p' : Processor σ L} {log log' : List (Called σ L)}
    (h : Life e k p log k₁ p₁) (h' : Life e k₁ p₁ log' k' p') : Life e k p (log ++ log') k' p' := by
  induction h with
  | nil h => exact h'.weaken h (Nat.le_refl _)
  | cons h1 h2 h3 ih => exact .cons h1 h2 (ih h')

omit [DecidableEq L] [Custom σ L] in
theorem RunsOnly.nil : RunsOnly ([] : List (Called σ L)) [] := ⟨rfl, fun _ h => nomatch h⟩

omit [DecidableEq L] [Custom σ L] in
theorem RunsOnly.append {a b : List (Called σ L)} {r s : List (Nat × Strategy)} (h : RunsOnly a r) (h' : RunsOnly b s) :
    RunsOnly (a ++ b) (r ++ s) :=
  ⟨by rw [List.filterMap_append, h.runs, h'.runs], fun c hc => by
    rcases List.mem_append.mp hc with hc | hc
    · exact h.others c hc
    · exact h'.others c hc⟩

/-- The processor `p`, at `path` below `n`, lives on at the same place below `n'`. -/
def Node.Keeps (e : Env) (path : List Nat) (runs : List (Nat × Strategy)) (k : Nat) (n : Node σ L) (k' : Nat) (n' : Node σ L) : Prop :=
  ∀ p, n.at path = some (.processor p) →
    ∃ calls p', Life e k p calls k' p' ∧ RunsOnly calls runs ∧ n'.at path = some (.processor p') ∧
      n'.mountsTo path = n.mountsTo path

theorem Node.Keeps.refl {e : Env} {path : List Nat} {k k' : Nat} {n : Node σ L} (h : k ≤ k') : Node.Keeps e path [] k n k' n :=
  fun p hp => ⟨[], p, .nil h, .nil, hp, rfl⟩

theorem Node.Keeps.trans {e : Env} {path : List Nat} {r s : List (Nat × Strategy)} {k k₁ k' : Nat} {n n₁ n' : Node σ L}
    (h : Node.Keeps e path r k n k₁ n₁) (h' : Node.Keeps e path s k₁ n₁ k' n') : Node.Keeps e path (r ++ s) k n k' n' := by
  intro p hp
  obtain ⟨c, p₁, l1, r1, h1, g1⟩ := h p hp
  obtain ⟨c', p', l2, r2, h2, g2⟩ := h' p₁ h1
  exact ⟨c ++ c', p', l1.trans l2, r1.append r2, h2, g2.trans g1⟩

theorem Node.Keeps.weaken {e : Env} {path : List Nat} {r : List (Nat × Strategy)} {j k k' j' : Nat} {n n' : Node σ L}
    (h : Node.Keeps e path r k n k' n') (hj : j ≤ k) (hj' : k' ≤ j') : Node.Keeps e path r j n j' n' := by
  intro p hp
  obtain ⟨c, p', l, hr, ha⟩ := h p hp
  exact ⟨c, p', l.weaken hj hj', hr, ha⟩

theorem MountHead.afterRun_name {h h' : MountHead} {o : Outcome} {e : Env} {k k' : Nat}
    (hh : h.afterRun o e k = some (h', k')) : h'.name = h.name := by
  unfold MountHead.afterRun at hh
  split at hh
  · simp only [M.bind_eq_some, M.run_now, M.run_pure, Option.some.injEq, Prod.mk.injEq] at hh
    obtain ⟨_, _, _, rfl, _⟩ := hh
    rfl
  · simp at hh
    rw [hh.1]

variable [CustomProcessor σ]

theorem InTurn.get (hc : CustomForward σ L) (hp : CustomProcessorForward σ) {e : Env} {max : Nat} {s : Strategy} {k k' : Nat}
    {ns ns' : List (Node σ L)} {os : List Outcome} (h : InTurn e max s k ns ns' os k') :
    k ≤ k' ∧ ∀ (i : Nat) (n : Node σ L), ns[i]? = some n →
      ∃ n' o k₁ k₂, k ≤ k₁ ∧ n.process max s e k₁ = some ((n', o), k₂) ∧ k₂ ≤ k' ∧ ns'[i]? = some n' := by
  induction h with
  | nil h => exact ⟨h, fun i n hn => by simp at hn⟩
  | @cons k k₁ k₂ k' n n' o ns ns' os h1 h2 h3 ih =>
    have hle := (Node.fwd_process hc hp _ _ _).le h2
    obtain ⟨ih1, ih⟩ := ih
    refine ⟨by omega, fun i m hm => ?_⟩
    cases i with
    | zero =>
      simp only [List.getElem?_cons_zero, Option.some.injEq] at hm
      subst hm
      exact ⟨n', o, k₁, k₂, h1, h2, ih1, rfl⟩
    | succ i =>
      obtain ⟨n₁, o₁, j₁, j₂, a, b, c, d⟩ := ih i m (by simpa using hm)
      exact ⟨n₁, o₁, j₁, j₂, by omega, b, c, by simpa using d⟩

omit [DecidableEq L] in
theorem PutInTurn.get {X : Type} {put : X → Snapshot → M (X × Snapshot)} (hf : ∀ x s, M.Fwd (put x s)) {e : Env} {k k' : Nat}
    {xs xs' : List X} {s s' : Snapshot} (h : PutInTurn put e k xs s xs' s' k') :
    k ≤ k' ∧ ∀ (i : Nat) (x : X), xs[i]? = some x →
      ∃ x' t t' k₁ k₂, k ≤ k₁ ∧ put x t e k₁ = some ((x', t'), k₂) ∧ k₂ ≤ k' ∧ xs'[i]? = some x' := by
  induction h with
  | nil => exact ⟨Nat.le_refl _, fun i n hn => by simp at hn⟩
  | @cons k k₁ k' x x' xs xs' into into₁ into' h2 h3 ih =>
    have hle := (hf _ _).le h2
    obtain ⟨ih1, ih⟩ := ih
    refine ⟨by omega, fun i m hm => ?_⟩
    cases i with
    | zero =>
      simp only [List.getElem?_cons_zero, Option.some.injEq] at hm
      subst hm
      exact ⟨x', _, _, k, k₁, Nat.le_refl _, h2, ih1, rfl⟩
    | succ i =>
      obtain ⟨n₁, o₁, t', j₁, j₂, a, b, c, d⟩ := ih i m (by simpa using hm)
      exact ⟨n₁, o₁, t', j₁, j₂, by omega, b, c, by simpa using d⟩

/-- A run of a mount runs each of its children once, each at its place. -/
theorem Node.process_child (hc : CustomForward σ L) (hp : CustomProcessorForward σ) {e : Env} {max : Nat} {s : Strategy}
    {k k' : Nat} {n n' m : Node σ L} {o : Outcome} {i : Nat} (h : n.process max s e k = some ((n', o), k'))
    (hx : n.children[i]? = some m) :
    ∃ m' o' k₁ k₂, k ≤ k₁ ∧ m.process max s e k₁ = some ((m', o'), k₂) ∧ k₂ ≤ k' ∧ n'.children[i]? = some m' ∧
      n'.mountName = n.mountName := by
  cases n with
  | mount hd ns ss =>
    simp only [Node.process, M.bind_eq_some, M.run_pure, Option.some.injEq, Prod.mk.injEq] at h
    obtain ⟨⟨ns', o₁⟩, k₁, h1, hd', k₂, h2, ⟨rfl, rfl⟩, rfl⟩ := h
    obtain ⟨os, h3, _⟩ := processNodes_inTurn h1
    obtain ⟨m', o', j₁, j₂, a, b, c, d⟩ := (h3.get hc hp).2 i m hx
    have := (MountHead.fwd_afterRun _ _).le h2
    exact ⟨m', o', j₁, j₂, a, b, by omega, d, MountHead.afterRun_name h2⟩
  | attached hd ns ss inbox =>
    cases inbox with
    | nil =>
      simp only [Node.process, M.bind_eq_some, M.run_pure, Option.some.injEq, Prod.mk.injEq] at h
      obtain ⟨⟨ns', o₁⟩, k₁, h1, hd', k₂, h2, ⟨rfl, rfl⟩, rfl⟩ := h
      obtain ⟨os, h3, _⟩ := processNodes_inTurn h1
      obtain ⟨m', o', j₁, j₂, a, b, c, d⟩ := (h3.get hc hp).2 i m hx
      have := (MountHead.fwd_afterRun _ _).le h2
      exact ⟨m', o', j₁, j₂, a, b, by omega, d, MountHead.afterRun_name h2⟩
    | cons arrivals inbox =>
      obtain ⟨ps, ss', closed⟩ := arrivals
      simp only [Node.process, M.bind_eq_some, M.run_pure, Option.some.injEq, Prod.mk.injEq] at h
      obtain ⟨⟨ns', o₁⟩, k₁, h1, ⟨ps', o₂⟩, k₂, h2, hd', k₃, h3, ⟨rfl, rfl⟩, rfl⟩ := h
      obtain ⟨os, h4, _⟩ := processNodes_inTurn h1
      obtain ⟨m', o', j₁, j₂, a, b, c, d⟩ := (h4.get hc hp).2 i m hx
      have f2 := (fwd_processNodes hc hp _ _ _).le h2
      have f3 := (MountHead.fwd_afterRun _ _).le h3
      refine ⟨m', o', j₁, j₂, a, b, by omega, ?_, MountHead.afterRun_name h3⟩
      have hlt : i < ns'.length := by
        by_contra hge
        rw [List.getElem?_eq_none (by omega)] at d; cases d
      simp only [Node.children]
      rw [List.getElem?_append_left hlt, d]
  | _ => simp [Node.children] at hx

/-- A run of a node: the processor below it runs once. -/
theorem Node.keeps_process (hc : CustomForward σ L) (hp : CustomProcessorForward σ) {e : Env} {max : Nat} {s : Strategy}
    {k k' : Nat} {n n' : Node σ L} {o : Outcome} (path : List Nat) (h : n.process max s e k = some ((n', o), k')) :
    Node.Keeps e path [(max, s)] k n k' n' := by
  induction path generalizing n n' k k' o with
  | nil =>
    intro p hn
    simp only [Node.at, Option.some.injEq] at hn
    subst hn
    simp only [Node.process, M.bind_eq_some, M.run_pure, Option.some.injEq, Prod.mk.injEq] at h
    obtain ⟨⟨p', out⟩, _, h, ⟨rfl, rfl⟩, rfl⟩ := h
    refine ⟨[⟨k, .process max s, .outcome out⟩], p', .cons (Nat.le_refl _) ?_ (.nil (Nat.le_refl _)), ⟨rfl, ?_⟩, rfl, rfl⟩
    · simp only [Processor.call]
      rw [M.run_bind_some h]; rfl
    · intro c hc hcall
      rw [List.mem_singleton] at hc
      subst hc
      cases hcall
  | cons i path ih =>
    intro p hn
    simp only [Node.at] at hn
    cases hx : n.children[i]? with
    | none => rw [hx] at hn; cases hn
    | some m =>
      rw [hx] at hn
      have hn : m.at path = some (.processor p) := hn
      obtain ⟨m', o', k₁, k₂, h1, h2, h3, h4, h5⟩ := Node.process_child hc hp h hx
      obtain ⟨calls, p', hl, hr, ha, hg⟩ := ih h2 p hn
      refine ⟨calls, p', hl.weaken h1 h3, hr, ?_, ?_⟩
      · simp only [Node.at, h4]
        exact ha
      · simp only [Node.mountsTo, h4, hx, h5, Option.map_some, Option.getD_some, hg]

/-- A snapshot of a mount makes a snapshot of each of its children, or of none. -/
theorem Node.snapshot_child (hc : CustomForward σ L) (hp : CustomProcessorForward σ) {e : Env} {d : Bool} {into s : Snapshot}
    {k k' : Nat} {n n' m : Node σ L} {i : Nat} (h : n.putSnapshot d into e k = some ((n', s), k'))
    (hx : n.children[i]? = some m) :
    n'.mountName = n.mountName ∧ (n'.children[i]? = some m ∨ ∃ m' t t' k₁ k₂, k ≤ k₁ ∧
      m.putSnapshot d t e k₁ = some ((m', t'), k₂) ∧ k₂ ≤ k' ∧ n'.children[i]? = some m') := by
  have hname : n'.mountName = n.mountName := by
    cases n with
    | mount hd ns ss =>
      simp only [Node.putSnapshot, M.bind_eq_some] at h
      obtain ⟨⟨go, level⟩, k₁, h1, h⟩ := h
      cases go with
      | false =>
        simp only [Bool.false_eq_true, if_false, M.run_pure, Option.some.injEq, Prod.mk.injEq] at h
        obtain ⟨⟨rfl, rfl⟩, rfl⟩ := h
        rfl
      | true =>
        simp only [if_true, M.bind_eq_some, M.run_pure, Option.some.injEq, Prod.mk.injEq] at h
        obtain ⟨_, _, _, _, _, _, ⟨rfl, rfl⟩, rfl⟩ := h
        rfl
    | attached hd ns ss inbox =>
      simp only [Node.putSnapshot, M.bind_eq_some] at h
      obtain ⟨⟨go, level⟩, k₁, h1, h⟩ := h
      cases go with
      | false =>
        simp only [Bool.false_eq_true, if_false, M.run_pure, Option.some.injEq, Prod.mk.injEq] at h
        obtain ⟨⟨rfl, rfl⟩, rfl⟩ := h
        rfl
      | true =>
        simp only [if_true, M.bind_eq_some, M.run_pure, Option.some.injEq, Prod.mk.injEq] at h
        obtain ⟨_, _, _, _, _, _, ⟨rfl, rfl⟩, rfl⟩ := h
        rfl
    | _ => simp [Node.children] at hx
  have key : n'.children[i]? = some m ∨ ∃ m' t t' k₁ k₂, k ≤ k₁ ∧ m.putSnapshot d t e k₁ = some ((m', t'), k₂) ∧ k₂ ≤ k' ∧
      n'.children[i]? = some m' := by
    cases n with
    | mount hd ns ss =>
      simp only [Node.putSnapshot, M.bind_eq_some] at h
      obtain ⟨⟨go, level⟩, k₁, h1, h⟩ := h
      have f1 := (Activity.fwd_putFlags _ _).le h1
      cases go with
      | false =>
        simp only [Bool.false_eq_true, if_false, M.run_pure, Option.some.injEq, Prod.mk.injEq] at h
        obtain ⟨⟨rfl, rfl⟩, rfl⟩ := h
        exact .inl hx
      | true =>
        simp only [if_true, M.bind_eq_some, M.run_pure, Option.some.injEq, Prod.mk.injEq] at h
        obtain ⟨⟨ns', l₁⟩, k₂, h2, ⟨ss', l₂⟩, k₃, h3, ⟨rfl, rfl⟩, rfl⟩ := h
        obtain ⟨m', t, t', j₁, j₂, a, b, c, d⟩ :=
          ((putNodes_inTurn h2).get fun _ _ => Node.fwd_putSnapshot hc hp _ _ _).2 i m hx
        have f3 := (fwd_putSnapshooters hc _ _ _).le h3
        exact .inr ⟨m', t, t', j₁, j₂, by omega, b, by omega, d⟩
    | attached hd ns ss inbox =>
      simp only [Node.putSnapshot, M.bind_eq_some] at h
      obtain ⟨⟨go, level⟩, k₁, h1, h⟩ := h
      have f1 := (Activity.fwd_putFlags _ _).le h1
      cases go with
      | false =>
        simp only [Bool.false_eq_true, if_false, M.run_pure, Option.some.injEq, Prod.mk.injEq] at h
        obtain ⟨⟨rfl, rfl⟩, rfl⟩ := h
        exact .inl hx
      | true =>
        simp only [if_true, M.bind_eq_some, M.run_pure, Option.some.injEq, Prod.mk.injEq] at h
        obtain ⟨⟨ns', l₁⟩, k₂, h2, ⟨ss', l₂⟩, k₃, h3, ⟨rfl, rfl⟩, rfl⟩ := h
        obtain ⟨m', t, t', j₁, j₂, a, b, c, d⟩ :=
          ((putNodes_inTurn h2).get fun _ _ => Node.fwd_putSnapshot hc hp _ _ _).2 i m hx
        have f3 := (fwd_putSnapshooters hc _ _ _).le h3
        exact .inr ⟨m', t, t', j₁, j₂, by omega, b, by omega, d⟩
    | _ => simp [Node.children] at hx
  exact ⟨hname, key⟩

/-- A snapshot of a node. -/
theorem Node.keeps_snapshot (hc : CustomForward σ L) (hp : CustomProcessorForward σ) {e : Env} {d : Bool} {into s : Snapshot}
    {k k' : Nat} {n n' : Node σ L} (path : List Nat) (h : n.putSnapshot d into e k = some ((n', s), k')) :
    Node.Keeps e path [] k n k' n' := by
  induction path generalizing n n' k k' into s with
  | nil =>
    intro p hn
    simp only [Node.at, Option.some.injEq] at hn
    subst hn
    simp only [Node.putSnapshot, M.bind_eq_some, M.run_pure, Option.some.injEq, Prod.mk.injEq] at h
    obtain ⟨⟨p', out⟩, _, h, ⟨rfl, rfl⟩, rfl⟩ := h
    refine ⟨[⟨k, .snapshot into d, .snapshot out⟩], p', .cons (Nat.le_refl _) ?_ (.nil (Nat.le_refl _)), ⟨rfl, ?_⟩, rfl, rfl⟩
    · simp only [Processor.call]
      rw [M.run_bind_some h]; rfl
    · intro c hc _
      rw [List.mem_singleton] at hc
      subst hc
      exact ⟨_, _, rfl⟩
  | cons i path ih =>
    intro p hn
    have hle := (Node.fwd_putSnapshot hc hp _ _ _).le h
    simp only [Node.at] at hn
    cases hx : n.children[i]? with
    | none => rw [hx] at hn; cases hn
    | some m =>
      rw [hx] at hn
      have hn : m.at path = some (.processor p) := hn
      obtain ⟨hname, key⟩ := Node.snapshot_child hc hp h hx
      rcases key with h4 | ⟨m', t, t', k₁, k₂, h1, h2, h3, h4⟩
      · exact ⟨[], p, .nil hle, .nil, by simp only [Node.at, h4]; exact hn, by simp only [Node.mountsTo, h4, hx, hname]⟩
      · obtain ⟨calls, p', hl, hr, ha, hg⟩ := ih h2 p hn
        refine ⟨calls, p', hl.weaken h1 h3, hr, ?_, ?_⟩
        · simp only [Node.at, h4]
          exact ha
        · simp only [Node.mountsTo, h4, hx, hname, Option.map_some, Option.getD_some, hg]

/-! ## The loop -/

/-- A relation between a node before and after some runs and snapshots that can be established one at a time. -/
structure StepWise (e : Env) (R : List (Nat × Strategy) → Nat → Node σ L → Nat → Node σ L → Prop) : Prop where
  refl : ∀ {k k' n}, k ≤ k' → R [] k n k' n
  trans : ∀ {r s k k₁ k' n n₁ n'}, R r k n k₁ n₁ → R s k₁ n₁ k' n' → R (r ++ s) k n k' n'
  weaken : ∀ {r j k k' j' n n'}, R r k n k' n' → j ≤ k → k' ≤ j' → R r j n j' n'
  process : ∀ {max s k k' n n' o}, Node.process max s n e k = some ((n', o), k') → R [(max, s)] k n k' n'
  snapshot : ∀ {d into s k k'} {n n' : Node σ L}, n.putSnapshot d into e k = some ((n', s), k') → R [] k n k' n'

theorem Node.Keeps.stepWise (hc : CustomForward σ L) (hp : CustomProcessorForward σ) (e : Env) (path : List Nat) :
    StepWise e (Node.Keeps (σ := σ) (L := L) e path) :=
  ⟨.refl, .trans, .weaken, Node.keeps_process hc hp path, Node.keeps_snapshot hc hp path⟩

variable {R : List (Nat × Strategy) → Nat → Node σ L → Nat → Node σ L → Prop}

/-- The same for the processors of a driver. -/
def LoopState.Keeps (R : List (Nat × Strategy) → Nat → Node σ L → Nat → Node σ L → Prop) (i : Nat) (runs : List (Nat × Strategy))
    (k : Nat) (l : LoopState σ L) (k' : Nat) (l' : LoopState σ L) : Prop :=
  ∀ n, l.processors[i]? = some n → ∃ n', l'.processors[i]? = some n' ∧ R runs k n k' n'

theorem LoopState.Keeps.trans {e : Env} (hR : StepWise e R) {i : Nat} {r s : List (Nat × Strategy)} {k k₁ k' : Nat}
    {l l₁ l' : LoopState σ L} (h : l.Keeps R i r k k₁ l₁) (h' : l₁.Keeps R i s k₁ k' l') :
    l.Keeps R i (r ++ s) k k' l' := by
  intro n hn
  obtain ⟨n₁, h1, h2⟩ := h n hn
  obtain ⟨n', h3, h4⟩ := h' n₁ h1
  exact ⟨n', h3, hR.trans h2 h4⟩

theorem LoopState.Keeps.weaken {e : Env} (hR : StepWise e R) {i : Nat} {r : List (Nat × Strategy)} {j k k' j' : Nat}
    {l l' : LoopState σ L} (h : l.Keeps R i r k k' l') (hj : j ≤ k) (hj' : k' ≤ j') : l.Keeps R i r j j' l' := by
  intro n hn
  obtain ⟨n₁, h1, h2⟩ := h n hn
  exact ⟨n₁, h1, hR.weaken h2 hj hj'⟩

theorem fwd_addSnapshotValues (hc : CustomForward σ L) (hp : CustomProcessorForward σ) (l : LoopState σ L) (into : Snapshot)
    (d : Bool) (t : Int) : M.Fwd (l.addSnapshotValues into d t) := by
  unfold LoopState.addSnapshotValues
  refine .bind (fwd_putNodes hc hp _ _ _) fun _ => .bind (fwd_putSnapshooters hc _ _ _) fun _ => ?_
  cases l.metrics with
  | none => exact .pure _
  | some i => exact .bind (DriverInstruments.fwd_updatePostSnapshot _ _) fun _ => .bind (DriverInstruments.fwd_putSnapshot _ _ _) fun _ => .pure _

theorem keeps_handle (hc : CustomForward σ L) (hp : CustomProcessorForward σ) {e : Env} {k k' : Nat} {l l' : LoopState σ L}
    {m : DriverMsg σ L} {answer : Option Snapshot} (hR : StepWise e R) (i : Nat)
    (h : l.handle m e k = some ((l', answer), k')) :
    k ≤ k' ∧ l.Keeps R i [] k k' l' ∧ l'.strategy = strategyAfter l.strategy [m] ∧ l'.paused = (match m with
      | .pause => true
      | .resume => false
      | _ => l.paused) ∧
      l'.processors.length = l.processors.length + (addedProcessors [m]).length := by
  have same : ∀ l₁ : LoopState σ L, l₁.processors = l.processors → l.Keeps R i [] k k l₁ :=
    fun l₁ h n hn => ⟨n, by rw [h]; exact hn, hR.refl (Nat.le_refl _)⟩
  cases m with
  | getSnapshot id d =>
    simp only [LoopState.handle, M.bind_eq_some, M.run_pure, Option.some.injEq, Prod.mk.injEq] at h
    obtain ⟨⟨l₁, s⟩, k₁, hmake, ⟨rfl, rfl⟩, rfl⟩ := h
    obtain ⟨level, hv, rfl⟩ := makeSnapshot_spec hmake
    have hle := (fwd_addSnapshotValues hc hp _ _ _ _).le hv
    obtain ⟨ps, ss, items₁, items₂, k₂, k₃, metrics, entry, hps, hs, -, -, hm, rfl, hrest⟩ := addSnapshotValues_spec hv
    have hget := hps.get fun _ _ => Node.fwd_putSnapshot hc hp _ _ _
    have hget' := hs.get fun _ _ => Snapshooter.fwd_putSnapshot hc _ _ _
    have hk : k₃ ≤ k₁ := by
      cases hmm : l.metrics with
      | none => rw [hmm] at hrest; omega
      | some i =>
        rw [hmm] at hrest
        obtain ⟨i₁, i₂, k₄, a, b, _⟩ := hrest
        have := (DriverInstruments.fwd_updatePostSnapshot _ _).le a
        have := (DriverInstruments.fwd_putSnapshot _ _ _).le b
        omega
    refine ⟨by omega, ?_, by simp [strategyAfter], rfl, ?_⟩
    · intro n hn
      obtain ⟨n', t, t', j₁, j₂, a, b, c, x⟩ := hget.2 i n hn
      exact ⟨n', x, hR.weaken (hR.snapshot b) (by omega) (by omega)⟩
    · have := hps.each.length_eq
      simp [addedProcessors, this]
  | addProcessor n =>
    simp only [LoopState.handle, M.run_pure, Option.some.injEq, Prod.mk.injEq] at h
    obtain ⟨⟨rfl, rfl⟩, rfl⟩ := h
    refine ⟨Nat.le_refl _, ?_, by simp [strategyAfter], rfl, by simp [addedProcessors]⟩
    intro m hm
    refine ⟨m, ?_, hR.refl (Nat.le_refl _)⟩
    have hlt : i < l.processors.length := by
      by_contra hge
      rw [List.getElem?_eq_none (by omega)] at hm; cases hm
    simp only
    rw [List.getElem?_append_left hlt, hm]
  | addSnapshooter n =>
    simp only [LoopState.handle, M.run_pure, Option.some.injEq, Prod.mk.injEq] at h
    obtain ⟨⟨rfl, rfl⟩, rfl⟩ := h
    exact ⟨Nat.le_refl _, same _ rfl, by simp [strategyAfter], rfl, by simp [addedProcessors]⟩
  | setStrategy s =>
    simp only [LoopState.handle, M.run_pure, Option.some.injEq, Prod.mk.injEq] at h
    obtain ⟨⟨rfl, rfl⟩, rfl⟩ := h
    exact ⟨Nat.le_refl _, same _ rfl, by simp [strategyAfter], rfl, by simp [addedProcessors]⟩
  | pause =>
    simp only [LoopState.handle, M.run_pure, Option.some.injEq, Prod.mk.injEq] at h
    obtain ⟨⟨rfl, rfl⟩, rfl⟩ := h
    exact ⟨Nat.le_refl _, same _ rfl, by simp [strategyAfter], rfl, by simp [addedProcessors]⟩
  | resume =>
    simp only [LoopState.handle, M.run_pure, Option.some.injEq, Prod.mk.injEq] at h
    obtain ⟨⟨rfl, rfl⟩, rfl⟩ := h
    exact ⟨Nat.le_refl _, same _ rfl, by simp [strategyAfter], rfl, by simp [addedProcessors]⟩

theorem keeps_begin (hc : CustomForward σ L) (hp : CustomProcessorForward σ) {e : Env} {k k' : Nat} {l l' : LoopState σ L}
    {m : Option (DriverMsg σ L)} {started : Int} {answer : Option Snapshot} (hR : StepWise e R) (i : Nat)
    (h : l.begin m e k = some ((l', started, answer), k')) :
    k ≤ k' ∧ l.Keeps R i [] k k' l' ∧ l'.strategy = strategyAfter l.strategy m.toList := by
  rcases (begin_spec h).2 with ⟨rfl, rfl, rfl, rfl⟩ | ⟨m', rfl, hh⟩
  · exact ⟨by omega, fun n hn => ⟨n, hn, hR.refl (by omega)⟩, rfl⟩
  · obtain ⟨h1, h2, h3, _⟩ := keeps_handle hc hp hR i hh
    exact ⟨by omega, h2.weaken hR (by omega) (Nat.le_refl _), h3⟩

theorem DriverInstruments.fwd_updatePostCollection (i : DriverInstruments) (o : Outcome) (t : Int) :
    M.Fwd (i.updatePostCollection o t) := by
  unfold DriverInstruments.updatePostCollection
  refine .bind .now fun _ => .bind ?_ fun _ => .bind ?_ fun _ => .bind ?_ fun _ => .bind ?_ fun _ => .bind ?_ fun _ => ?_
  · unfold DriverInstruments.notePass
    refine .bind (Meter.fwd_update _ _) fun _ => .bind ?_ fun _ => .bind (Histogram.fwd_update _ _) fun _ => .pure _
    unfold ObservedValue.ofDuration; fwd
  · unfold DriverInstruments.noteProcessed
    exact .ite (.bind (Meter.fwd_update _ _) fun _ => .bind (Histogram.fwd_update _ _) fun _ => .pure _) (.pure _)
  · unfold DriverInstruments.noteEnqueued
    exact .bind (Gauge.fwd_update _ _) fun _ => .pure _
  · unfold DriverInstruments.noteDropped
    refine .ite (.bind (Meter.fwd_update _ _) fun _ => .bind (Histogram.fwd_update _ _) fun _ => .bind ?_ fun _ => .pure _) (.pure _)
    unfold StaircaseTimer.update; fwd
  · unfold DriverInstruments.noteUpdated
    exact .ite (.bind (Meter.fwd_update _ _) fun _ => .pure _) (.pure _)
  · unfold DriverInstruments.noteActivity NonOccurrenceIndicator.update
    fwd

theorem DriverInstruments.fwd_updateRunRatio (i : DriverInstruments) (q : Rat) : M.Fwd (i.updateRunRatio q) := by
  unfold DriverInstruments.updateRunRatio
  exact .bind .env fun _ => .bind .now fun _ => .bind (Histogram.fwd_update _ _) fun _ => .bind (Gauge.fwd_update _ _) fun _ => .pure _

theorem keeps_work (hc : CustomForward σ L) (hp : CustomProcessorForward σ) {e : Env} {k k' : Nat} {l l' : LoopState σ L}
    {started : Int} {outcome : Option Outcome} {rest : Option Nap} (hR : StepWise e R) (i : Nat)
    (h : l.work started e k = some ((l', outcome, rest), k')) :
    k ≤ k' ∧ l.Keeps R i (if outcome.isSome then [(1000, l.strategy)] else []) k k' l' ∧ l'.strategy = l.strategy := by
  rcases work_spec h with ⟨h1, rfl, rfl, rfl⟩ | ⟨h1, o, ps, k₁, t, c, w, l₁, k₂, k₃, rfl, h3, rfl, hk, l₂, h5, h6⟩
  · exact ⟨Nat.le_refl _, fun n hn => ⟨n, hn, hR.refl (Nat.le_refl _)⟩, rfl⟩
  · have f1 := (fwd_processNodes hc hp _ _ _).le h3
    obtain ⟨m₂, rfl, _, h7⟩ := noteRun_spec h5
    have f2 : k₂ ≤ k₃ := by
      cases hm : l.metrics with
      | none => simp only [hm] at h7; omega
      | some i =>
        simp only [hm] at h7
        obtain ⟨i', a, _⟩ := h7
        exact (DriverInstruments.fwd_updatePostCollection _ _ _).le a
    have key : k₃ ≤ k' ∧ l'.processors = ps ∧ l'.strategy = l.strategy := by
      rcases h6 with ⟨rfl, rfl⟩ | ⟨rt, h6⟩
      · exact ⟨Nat.le_refl _, rfl, rfl⟩
      · obtain ⟨m₃, rfl, _, h8⟩ := reportElapsed_spec h6
        refine ⟨?_, rfl, rfl⟩
        cases hm : m₂ with
        | none => simp only [hm] at h8; omega
        | some i =>
          simp only [hm] at h8
          rcases h8 with ⟨_, h8⟩ | ⟨i', q, a, _⟩
          · omega
          · have := (DriverInstruments.fwd_updateRunRatio _ _).le a
            omega
    obtain ⟨f3, hps, hst⟩ := key
    refine ⟨by omega, ?_, hst⟩
    intro n hn
    obtain ⟨os, h4, _⟩ := processNodes_inTurn h3
    obtain ⟨n', o', j₁, j₂, a, b, c, x⟩ := (h4.get hc hp).2 i n hn
    exact ⟨n', by rw [hps]; exact x, hR.weaken (hR.process b) (by omega) (by omega)⟩

/-- The processor at a place in a driver is run once in each run of the driver. -/
theorem DriverLife.keeps (hc : CustomForward σ L) (hp : CustomProcessorForward σ) {e : Env} {k k' : Nat} {l l' : Loop σ L}
    {log : List (Iteration σ L)} (hR : StepWise e R) (i : Nat) (h : DriverLife e k (.running l) log k' (.running l')) :
    l.state.Keeps R i ((strategiesIn l.state.strategy log).map fun s => (1000, s)) k k' l'.state := by
  suffices ∀ {t t' : DriverThread σ L} {l l' : Loop σ L}, DriverLife e k t log k' t' → t = .running l → t' = .running l' →
      l.state.Keeps R i ((strategiesIn l.state.strategy log).map fun s => (1000, s)) k k' l'.state from this h rfl rfl
  clear h l l'
  intro t t' l l' h
  induction h generalizing l with
  | nil hk =>
    rintro rfl h
    cases h
    exact fun n hn => ⟨n, hn, hR.refl hk⟩
  | @iteration k k₁ k₂ k' t t₁ t' it log hk hi hl ih =>
    rintro rfl rfl
    have notEnded : ∀ c, t₁ ≠ .ended c := by
      intro c hc
      obtain ⟨_, s, h2⟩ := hl.ended hc
      cases h2
    cases iterates hi with
    | panicEarly hp hb => exact absurd rfl (notEnded _)
    | panicLate hp hb hw => exact absurd rfl (notEnded _)
    | done hpl hb hw =>
      rename_i r m s started answer j s' outcome rest
      obtain ⟨a1, a2, a3⟩ := keeps_begin hc hp hR i hb
      obtain ⟨b1, b2, b3⟩ := keeps_work hc hp hR i hw
      have h3 := ih rfl rfl
      simp only at h3
      rw [b3, a3] at h3
      rw [a3] at b2
      have := (a2.trans hR b2).trans hR h3
      simp only [strategiesIn, List.map_append]
      cases outcome with
      | none => simpa using this.weaken hR hk (Nat.le_refl _)
      | some o => simpa using this.weaken hR hk (Nat.le_refl _)
  | @over k k₁ k₂ k' t t₁ t' log _ hi hl ih =>
    rintro rfl rfl
    cases iterates hi with
    | stop hp =>
      obtain ⟨_, s, h2⟩ := hl.ended rfl
      cases h2
  | others hl ih => rintro hl; cases hl

end Metrix
