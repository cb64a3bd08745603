import Verif.Spec.Routes
import Verif.Proof.Delivery
import Verif.Proof.Mount

/-! # The way to something that has been or will be attached -/

namespace Metrix
variable {σ L : Type} [DecidableEq L] [Custom σ L]

/-- Everything on the way is there. -/
def Arrived (route : List Step) : Prop := ∃ way : List Nat, route = way.map .here

theorem Arrived.waits {route : List Step} (h : Arrived route) : waits route = 0 := by
  obtain ⟨way, rfl⟩ := h
  induction way with
  | nil => rfl
  | cons i way ih => simpa [Metrix.waits] using ih

theorem Arrived.cons {route : List Step} (i : Nat) (h : Arrived route) : Arrived (.here i :: route) := by
  obtain ⟨way, rfl⟩ := h
  exact ⟨i :: way, rfl⟩

theorem Arrived.tail {route : List Step} {s : Step} (h : Arrived (s :: route)) : Arrived route := by
  obtain ⟨way, h⟩ := h
  cases way with
  | nil => cases h
  | cons i way => cases h; exact ⟨way, rfl⟩

/-- The processor at the end of a route gets there, is run once it is there, and stays there. -/
def Node.Leads (e : Env) (route : List Step) (runs : List (Nat × Strategy)) (k : Nat) (n : Node σ L) (k' : Nat) (n' : Node σ L) :
    Prop :=
  ∀ p, n.reach route = some (.processor p) →
    ∃ calls p' route', Life e k p calls k' p' ∧ RunsOnly calls (runs.drop (waits route)) ∧
      n'.reach route' = some (.processor p') ∧ n'.mountsVia route' = n.mountsVia route ∧
      waits route' = waits route - runs.length ∧ (waits route < runs.length → Arrived route') ∧ (Arrived route → route' = route)

/-- The same for any route. -/
def Node.LeadsAll (e : Env) (runs : List (Nat × Strategy)) (k : Nat) (n : Node σ L) (k' : Nat) (n' : Node σ L) : Prop :=
  ∀ route, Node.Leads e route runs k n k' n'

theorem Node.LeadsAll.refl {e : Env} {k k' : Nat} {n : Node σ L} (h : k ≤ k') : Node.LeadsAll e [] k n k' n :=
  fun route p hp => ⟨[], p, route, .nil h, by simpa using RunsOnly.nil, hp, rfl, by simp, by simp, fun _ => rfl⟩

theorem Node.LeadsAll.trans {e : Env} {r s : List (Nat × Strategy)} {k k₁ k' : Nat} {n n₁ n' : Node σ L}
    (h : Node.LeadsAll e r k n k₁ n₁) (h' : Node.LeadsAll e s k₁ n₁ k' n') : Node.LeadsAll e (r ++ s) k n k' n' := by
  intro route p hp
  obtain ⟨c, p₁, route₁, l1, r1, h1, g1, w1, a1, s1⟩ := h route p hp
  obtain ⟨c', p', route', l2, r2, h2, g2, w2, a2, s2⟩ := h' route₁ p₁ h1
  refine ⟨c ++ c', p', route', l1.trans l2, ?_, h2, g2.trans g1, ?_, ?_, ?_⟩
  · rw [List.drop_append, ← w1]; exact r1.append r2
  · rw [w2, w1, List.length_append]; omega
  · intro hlt
    rw [List.length_append] at hlt
    by_cases hr : waits route < r.length
    · rw [s2 (a1 hr)]; exact a1 hr
    · exact a2 (by omega)
  · intro ha
    have := s1 ha
    subst this
    exact s2 ha

theorem Node.LeadsAll.weaken {e : Env} {r : List (Nat × Strategy)} {j k k' j' : Nat} {n n' : Node σ L}
    (h : Node.LeadsAll e r k n k' n') (hj : j ≤ k) (hj' : k' ≤ j') : Node.LeadsAll e r j n j' n' := by
  intro route p hp
  obtain ⟨c, p', route', l, hr⟩ := h route p hp
  exact ⟨c, p', route', l.weaken hj hj', hr⟩

variable [CustomProcessor σ]

theorem Node.leads_process (hc : CustomForward σ L) (hp : CustomProcessorForward σ) {e : Env} {max : Nat} {s : Strategy}
    {k k' : Nat} {n n' : Node σ L} {o : Outcome} (route : List Step) (h : n.process max s e k = some ((n', o), k')) :
    Node.Leads e route [(max, s)] k n k' n' := by
  induction route generalizing n n' k k' o with
  | nil =>
    intro p hn
    simp only [Node.reach, Option.some.injEq] at hn
    subst hn
    simp only [Node.process, M.bind_eq_some, M.run_pure, Option.some.injEq, Prod.mk.injEq] at h
    obtain ⟨⟨p', out⟩, _, h, ⟨rfl, rfl⟩, rfl⟩ := h
    refine ⟨[⟨k, .process max s, .outcome out⟩], p', [], .cons (Nat.le_refl _) ?_ (.nil (Nat.le_refl _)), ⟨rfl, ?_⟩, rfl, rfl,
      by simp [waits], fun _ => ⟨[], rfl⟩, fun _ => rfl⟩
    · simp only [Processor.call]
      rw [M.run_bind_some h]; rfl
    · intro c hc hcall
      rw [List.mem_singleton] at hc
      subst hc
      cases hcall
  | cons st route ih =>
    intro p hn
    simp only [Node.reach, Option.bind_eq_some_iff] at hn
    obtain ⟨m, hx, hn⟩ := hn
    cases st with
    | here i =>
      have hx' : n.children[i]? = some m := hx
      obtain ⟨m', o', k₁, k₂, h1, h2, h3, h4, h5⟩ := Node.process_child hc hp h hx'
      obtain ⟨calls, p', route', hl, hr, ha, hg, hw, harr, hsame⟩ := ih h2 p hn
      have h4' : n'.next (.here i) = some m' := h4
      refine ⟨calls, p', .here i :: route', hl.weaken h1 h3, ?_, ?_, ?_, ?_, ?_, ?_⟩
      · simpa [waits] using hr
      · simp only [Node.reach, h4', Option.bind_some]; exact ha
      · simp only [Node.mountsVia, h4', hx, h5, Option.map_some, Option.getD_some, hg]
      · simpa [waits] using hw
      · intro hlt; exact (harr (by simpa [waits] using hlt)).cons i
      · intro ha; rw [hsame ha.tail]
    | arriving run i =>
      cases n with
      | attached hd ns ss inbox =>
        simp only [Node.next] at hx
        split at hx
        case isFalse => cases hx
        case isTrue hopen =>
        obtain ⟨ns', os, k₁, hturn, hk₁, hsum, rfl⟩ := process_attached h
        have hle := (hturn.get hc hp).1
        cases inbox with
        | nil => simp at hx
        | cons a inbox =>
          cases run with
          | zero =>
            simp only [List.getElem?_cons_zero, Option.bind_some] at hx
            have hx' : (ns ++ (firstArrivals (a :: inbox)).processors)[ns.length + i]? = some m := by
              rw [List.getElem?_append_right (by omega), Nat.add_sub_cancel_left]; exact hx
            obtain ⟨m', o', j₁, j₂, h1, h2, h3, h4⟩ := (hturn.get hc hp).2 _ m hx'
            obtain ⟨calls, p', route', hl, hr, ha, hg, hw, harr, hsame⟩ := ih h2 p hn
            refine ⟨calls, p', .here (ns.length + i) :: route', hl.weaken h1 (by omega), ?_, ?_, ?_, ?_, ?_, ?_⟩
            · simpa [waits] using hr
            · simp only [Node.reach, Node.next, Node.children, h4, Option.bind_some]; exact ha
            · simp only [Node.mountsVia, Node.next, Node.children, h4, List.getElem?_cons_zero, Option.bind_some, hx, Node.mountName,
                Option.map_some, Option.getD_some, hg, List.take_zero, List.all_nil, if_true]
            · simpa [waits] using hw
            · intro hlt; exact (harr (by simpa [waits] using hlt)).cons _
            · rintro ⟨way, hway⟩; cases way <;> cases hway
          | succ run =>
            simp only [List.getElem?_cons_succ] at hx
            simp only [List.take_succ_cons, List.all_cons, Bool.and_eq_true, Bool.not_eq_true'] at hopen
            have hlater : laterArrivals (a :: inbox) = inbox := by simp [laterArrivals, hopen.1]
            have hnext : (Node.attached { hd with lastActivity := if o.somethingHappened then e.clock k₁ else hd.lastActivity } ns'
                (ss ++ (firstArrivals (a :: inbox)).snapshooters) (laterArrivals (a :: inbox))).next (.arriving run i) = some m := by
              simp only [Node.next, hlater]
              rw [if_pos hopen.2]; exact hx
            have hbefore : (Node.attached hd ns ss (a :: inbox)).next (.arriving (run + 1) i) = some m := by
              simp only [Node.next, List.take_succ_cons, List.all_cons, hopen.1, hopen.2, Bool.not_false, Bool.true_and, if_true,
                List.getElem?_cons_succ, hx]
            refine ⟨[], p, .arriving run i :: route, .nil (by omega), ?_, ?_, ?_, ?_, ?_, ?_⟩
            · have : ([(max, s)] : List (Nat × Strategy)).drop (waits (.arriving (run + 1) i :: route)) = [] := by
                rw [List.drop_eq_nil_iff]; simp [waits]; omega
              rw [this]; exact .nil
            · simp only [Node.reach, hnext, Option.bind_some]; exact hn
            · simp only [Node.mountsVia, hnext, hbefore, Node.mountName]
            · simp [waits]
            · simp [waits]
            · rintro ⟨way, hway⟩; cases way <;> cases hway
      | _ => simp [Node.next] at hx

theorem Node.snapshot_arriving {e : Env} {d : Bool} {into s : Snapshot} {k k' : Nat} {n n' m : Node σ L} {run i : Nat}
    (h : n.putSnapshot d into e k = some ((n', s), k')) (hx : n.next (.arriving run i) = some m) :
    n'.mountName = n.mountName ∧ n'.next (.arriving run i) = some m := by
  cases n with
  | attached hd ns ss inbox =>
    simp only [Node.putSnapshot, M.bind_eq_some] at h
    obtain ⟨⟨go, level⟩, k₁, h1, h⟩ := h
    cases go with
    | false =>
      simp only [Bool.false_eq_true, if_false, M.run_pure, Option.some.injEq, Prod.mk.injEq] at h
      obtain ⟨⟨rfl, rfl⟩, rfl⟩ := h
      exact ⟨rfl, hx⟩
    | true =>
      simp only [if_true, M.bind_eq_some, M.run_pure, Option.some.injEq, Prod.mk.injEq] at h
      obtain ⟨_, _, _, _, _, _, ⟨rfl, rfl⟩, rfl⟩ := h
      exact ⟨rfl, hx⟩
  | _ => simp [Node.next] at hx

theorem Node.leads_snapshot (hc : CustomForward σ L) (hp : CustomProcessorForward σ) {e : Env} {d : Bool} {into s : Snapshot}
    {k k' : Nat} {n n' : Node σ L} (route : List Step) (h : n.putSnapshot d into e k = some ((n', s), k')) :
    Node.Leads e route [] k n k' n' := by
  suffices ∀ p, n.reach route = some (.processor p) → ∃ calls p', Life e k p calls k' p' ∧ RunsOnly calls [] ∧
      n'.reach route = some (.processor p') ∧ n'.mountsVia route = n.mountsVia route by
    intro p hn
    obtain ⟨calls, p', h1, h2, h3, h4⟩ := this p hn
    exact ⟨calls, p', route, h1, by simpa using h2, h3, h4, by simp, by simp, fun _ => rfl⟩
  induction route generalizing n n' k k' into s with
  | nil =>
    intro p hn
    simp only [Node.reach, Option.some.injEq] at hn
    subst hn
    simp only [Node.putSnapshot, M.bind_eq_some, M.run_pure, Option.some.injEq, Prod.mk.injEq] at h
    obtain ⟨⟨p', out⟩, _, h, ⟨rfl, rfl⟩, rfl⟩ := h
    refine ⟨[⟨k, .snapshot into d, .snapshot out⟩], p', .cons (Nat.le_refl _) ?_ (.nil (Nat.le_refl _)), ⟨rfl, ?_⟩, rfl, rfl⟩
    · simp only [Processor.call]
      rw [M.run_bind_some h]; rfl
    · intro c hc _
      rw [List.mem_singleton] at hc
      subst hc
      exact ⟨_, _, rfl⟩
  | cons st route ih =>
    intro p hn
    have hle := (Node.fwd_putSnapshot hc hp _ _ _).le h
    simp only [Node.reach, Option.bind_eq_some_iff] at hn
    obtain ⟨m, hx, hn⟩ := hn
    have stays : n'.mountName = n.mountName → n'.next st = some m → ∃ calls p', Life e k p calls k' p' ∧ RunsOnly calls [] ∧
        n'.reach (st :: route) = some (.processor p') ∧ n'.mountsVia (st :: route) = n.mountsVia (st :: route) := by
      intro h1 h2
      exact ⟨[], p, .nil hle, .nil, by simp only [Node.reach, h2, Option.bind_some]; exact hn,
        by simp only [Node.mountsVia, h1, h2, hx]⟩
    cases st with
    | here i =>
      obtain ⟨hname, h4 | ⟨m', t, t', k₁, k₂, h1, h2, h3, h4⟩⟩ := Node.snapshot_child hc hp h hx
      · exact stays hname h4
      · obtain ⟨calls, p', hl, hr, ha, hg⟩ := ih h2 p hn
        have h4' : n'.next (.here i) = some m' := h4
        refine ⟨calls, p', hl.weaken h1 h3, hr, ?_, ?_⟩
        · simp only [Node.reach, h4', Option.bind_some]; exact ha
        · simp only [Node.mountsVia, h4', hx, hname, Option.map_some, Option.getD_some, hg]
    | arriving run i =>
      obtain ⟨h1, h2⟩ := Node.snapshot_arriving h hx
      exact stays h1 h2

theorem Node.LeadsAll.stepWise (hc : CustomForward σ L) (hp : CustomProcessorForward σ) (e : Env) :
    StepWise e (Node.LeadsAll (σ := σ) (L := L) e) :=
  ⟨.refl, .trans, .weaken, fun h route => Node.leads_process hc hp route h, fun h route => Node.leads_snapshot hc hp route h⟩

omit [DecidableEq L] [Custom σ L] [CustomProcessor σ] in
theorem Node.reach_here (way : List Nat) (n : Node σ L) : n.reach (way.map .here) = n.at way := by
  induction way generalizing n with
  | nil => rfl
  | cons i way ih =>
    simp only [List.map_cons, Node.reach, Node.at, Node.next]
    cases n.children[i]? with
    | none => rfl
    | some m => exact ih m

omit [DecidableEq L] [Custom σ L] [CustomProcessor σ] in
theorem Node.mountsVia_here (way : List Nat) (n : Node σ L) : n.mountsVia (way.map .here) = n.mountsTo way := by
  induction way generalizing n with
  | nil => rfl
  | cons i way ih =>
    simp only [List.map_cons, Node.mountsVia, Node.mountsTo, Node.next]
    cases n.children[i]? with
    | none => rfl
    | some m => simp [ih m]

end Metrix
