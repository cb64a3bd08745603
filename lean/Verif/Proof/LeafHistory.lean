import Verif.Spec.LeafHistory
import Verif.Proof.Dispatch
import Verif.Proof.Forward
import Verif.Proof.History

/-! # What happens to a component happens to each of its leaves -/

namespace Metrix

/-! ## Parts of components -/

/-- What happens to a whole happens to its part: `get` finds the part, `f` tells which inputs reach it, `P` excludes
inputs that remove it. -/
theorem History.project {C D A B : Type} [Component C A] [Component D B] (get : C → Option D) (f : A → Option B)
    (P : A → Prop) {e : Env}
    (htake : ∀ c a c' n k k' d, Component.take c a e k = some ((c', n), k') → P a → get c = some d →
      match (generalizing := false) f a with
      | none => get c' = some d ∧ k ≤ k'
      | some b => ∃ k₁ k₂ d' m, k ≤ k₁ ∧ k₂ ≤ k' ∧ Component.take d b e k₁ = some ((d', m), k₂) ∧ get c' = some d')
    (hput : ∀ c s b c' s' k k' d, Component.putSnapshot c s b e k = some ((c', s'), k') → get c = some d →
      (get c' = some d ∧ k ≤ k') ∨
      ∃ k₁ k₂ d' s₁ s₂ b', k ≤ k₁ ∧ k₂ ≤ k' ∧ Component.putSnapshot d s₁ b' e k₁ = some ((d', s₂), k₂) ∧ get c' = some d')
    {k k' : Nat} {c c' : C} {log : List (Event A)} (h : History e k c log k' c') (hP : ∀ a ∈ inputs log, P a) {d : D}
    (hd : get c = some d) :
    ∃ log' d', History e k d log' k' d' ∧ get c' = some d' ∧ inputs log' = (inputs log).filterMap f := by
  induction h generalizing d with
  | nil hk => exact ⟨[], d, .nil hk, hd, rfl⟩
  | @cons k k₁ k₂ k' c c₁ c' op out log hk hs _ ih =>
    have ih := fun {d : D} => ih (d := d) (fun a ha => hP a (by cases op <;> simp [inputs, ha]))
    have skip : ∀ {k}, k ≤ k₂ → get c₁ = some d → (∀ a, op = .input a → f a = none) →
        ∃ log' d', History e k d log' k' d' ∧ get c' = some d' ∧
          inputs log' = (inputs (⟨k₁, op, out, k₂⟩ :: log)).filterMap f := by
      intro k hk hg hop
      obtain ⟨log', d', hh, hg', hi⟩ := ih hg
      refine ⟨log', d', ?_, hg', ?_⟩
      · cases hh with
        | nil h => exact .nil (Nat.le_trans hk h)
        | cons h1 h2 h3 => exact .cons (Nat.le_trans hk h1) h2 h3
      · cases op with
        | input a => simp [inputs, hi, hop a rfl]
        | snapshot => simpa [inputs] using hi
    cases op with
    | input a =>
      obtain ⟨n, rfl, ht⟩ := step_input_eq_some.mp hs
      have := htake _ _ _ _ _ _ _ ht (hP a (by simp [inputs])) hd
      cases hf : f a with
      | none =>
        simp only [hf] at this
        exact skip (Nat.le_trans hk this.2) this.1 (fun b hb => by cases hb; exact hf)
      | some b =>
        simp only [hf] at this
        obtain ⟨j₁, j₂, d₁, m, hj₁, hj₂, htd, hg⟩ := this
        obtain ⟨log', d', hh, hg', hi⟩ := ih hg
        refine ⟨⟨j₁, .input b, .updated m, j₂⟩ :: log', d', ?_, hg', by simp [inputs, hf, hi]⟩
        refine .cons (Nat.le_trans hk hj₁) (step_input_eq_some.mpr ⟨m, rfl, htd⟩) ?_
        cases hh with
        | nil h => exact .nil (Nat.le_trans hj₂ h)
        | cons h1 h2 h3 => exact .cons (Nat.le_trans hj₂ h1) h2 h3
    | snapshot s b =>
      obtain ⟨s', rfl, ht⟩ := step_snapshot_eq_some.mp hs
      rcases hput _ _ _ _ _ _ _ _ ht hd with ⟨hg, hk'⟩ | ⟨j₁, j₂, d₁, s₁, s₂, b', hj₁, hj₂, htd, hg⟩
      · exact skip (Nat.le_trans hk hk') hg (fun a ha => (nomatch ha))
      · obtain ⟨log', d', hh, hg', hi⟩ := ih hg
        refine ⟨⟨j₁, .snapshot s₁ b', .snapshot s₂, j₂⟩ :: log', d', ?_, hg', by simp [inputs, hi]⟩
        refine .cons (Nat.le_trans hk hj₁) (step_snapshot_eq_some.mpr ⟨s₂, rfl, htd⟩) ?_
        cases hh with
        | nil h => exact .nil (Nat.le_trans hj₂ h)
        | cons h1 h2 h3 => exact .cons (Nat.le_trans hj₂ h1) h2 h3

variable {σ L : Type}

/-! ## Snapshots and leaves -/

/-- By a snapshot taken between the `k`-th and the `k'`-th reading of the clock the leaf is unchanged, or it put its
own snapshot. -/
def Rested [Custom σ L] (e : Env) (k k' : Nat) (x y : Placed σ L) : Prop :=
  y.1 = x.1 ∧ (y.2 = x.2 ∨ ∃ k₁ k₂ d s s', k ≤ k₁ ∧ k₂ ≤ k' ∧ x.2.putSnapshot d s e k₁ = some ((y.2, s'), k₂))

variable [Custom σ L]

theorem Rested.mono {e : Env} {k k' j j' : Nat} {x y : Placed σ L} (h : Rested e k k' x y) (hj : j ≤ k) (hj' : k' ≤ j') :
    Rested e j j' x y := by
  obtain ⟨h1, h2 | ⟨k₁, k₂, d, s, s', a, b, c⟩⟩ := h
  · exact ⟨h1, .inl h2⟩
  · exact ⟨h1, .inr ⟨k₁, k₂, d, s, s', by omega, by omega, c⟩⟩

/-- All of them. -/
abbrev AllRested (e : Env) (k k' : Nat) (l l' : List (Placed σ L)) : Prop := List.Forall₂ (Rested e k k') l l'

theorem AllRested.mono {e : Env} {k k' j j' : Nat} {l l' : List (Placed σ L)} (h : AllRested e k k' l l') (hj : j ≤ k)
    (hj' : k' ≤ j') : AllRested e j j' l l' := List.Forall₂.imp (fun _ _ h => h.mono hj hj') h

theorem AllRested.refl (e : Env) (k k' : Nat) (l : List (Placed σ L)) : AllRested e k k' l l := by
  induction l with
  | nil => exact .nil
  | cons x l ih => exact .cons ⟨rfl, .inl rfl⟩ ih

theorem AllRested.append {e : Env} {k k' : Nat} {a a' b b' : List (Placed σ L)} (h : AllRested e k k' a a')
    (h' : AllRested e k k' b b') : AllRested e k k' (a ++ b) (a' ++ b') := by
  induction h with
  | nil => exact h'
  | cons h1 _ ih => exact .cons h1 ih

theorem AllRested.behind {e : Env} {k k' : Nat} {a a' : List (Placed σ L)} (h : AllRested e k k' a a')
    (f : LabelFilter L) : AllRested e k k' (behind f a) (behind f a') := by
  induction h with
  | nil => exact .nil
  | cons h1 _ ih => exact .cons ⟨by simp [h1.1], h1.2⟩ ih

theorem AllRested.one {e : Env} {k k' : Nat} {x y : Leaf σ L} {d : Bool} {s s' : Snapshot}
    (h : x.putSnapshot d s e k = some ((y, s'), k')) : AllRested e k k' [([], x)] [([], y)] :=
  .cons ⟨rfl, .inr ⟨k, k', d, s, s', Nat.le_refl _, Nat.le_refl _, h⟩⟩ .nil

theorem rested_slot {I : Type} [IsInstrument I] (wrap : I → Instrument σ)
    (hw : ∀ i s d, Instrument.putSnapshot L (wrap i) s d = (do let (i, n) ← IsInstrument.putSnapshot i s d; return (wrap i, n)))
    {d : Bool} {a a' : Option (InstrumentAdapter L I)} {s s' : Snapshot} {e : Env} {k k' : Nat}
    (h : putSlot (fun a s => a.putSnapshot IsInstrument.putSnapshot s d) a s e k = some ((a', s'), k')) :
    AllRested e k k' ((a.map fun a => (([] : List (LabelFilter L)), Leaf.instrument (a.map wrap))).toList)
      ((a'.map fun a => (([] : List (LabelFilter L)), Leaf.instrument (a.map wrap))).toList) := by
  cases a with
  | none => simp [putSlot] at h; obtain ⟨⟨rfl, _⟩, _⟩ := h; exact .nil
  | some a =>
    simp only [putSlot, InstrumentAdapter.putSnapshot, M.bind_eq_some, M.run_pure, Option.some.injEq, Prod.mk.injEq] at h
    obtain ⟨_, _, ⟨⟨i, s₁⟩, _, h, rfl, rfl⟩, ⟨rfl, rfl⟩, rfl⟩ := h
    refine AllRested.one (d := d) (s := s) (s' := s₁) ?_
    simp only [Leaf.putSnapshot, InstrumentAdapter.putSnapshot, InstrumentAdapter.map, hw, bind_assoc, pure_bind]
    rw [M.run_bind_some h]; rfl

theorem rested_gauge {d : Bool} {a a' : Option (GaugeAdapter L)} {s s' : Snapshot} {e : Env} {k k' : Nat}
    (h : putSlot (fun a s => a.putSnapshot s d) a s e k = some ((a', s'), k')) :
    AllRested e k k' ((a.map fun a => (([] : List (LabelFilter L)), (Leaf.gauge a : Leaf σ L))).toList)
      ((a'.map fun a => (([] : List (LabelFilter L)), Leaf.gauge a)).toList) := by
  cases a with
  | none => simp [putSlot] at h; obtain ⟨⟨rfl, _⟩, _⟩ := h; exact .nil
  | some a =>
    simp only [putSlot, M.bind_eq_some, M.run_pure, Option.some.injEq, Prod.mk.injEq] at h
    obtain ⟨r, _, h, ⟨rfl, rfl⟩, rfl⟩ := h
    refine AllRested.one (d := d) (s := s) (s' := r.2) ?_
    simp only [Leaf.putSnapshot]
    rw [M.run_bind_some h]; rfl

theorem PanelHead.rested {h h' : PanelHead L} {d : Bool} {s s' : Snapshot} {e : Env} {k k' : Nat}
    (hh : h.putSlots s d e k = some ((h', s'), k')) :
    AllRested (σ := σ) e k k' h.leaves h'.leaves ∧ h'.labelFilter = h.labelFilter := by
  simp only [PanelHead.putSlots, M.bind_eq_some, M.run_pure, Option.some.injEq, Prod.mk.injEq] at hh
  obtain ⟨⟨a, s₁⟩, k₁, h1, ⟨b, s₂⟩, k₂, h2, ⟨c, s₃⟩, k₃, h3, ⟨f, s₄⟩, k₄, h4, ⟨rfl, rfl⟩, rfl⟩ := hh
  have f1 := (fwd_putSlot (fun a s => M.Fwd.bind (fwd_keeping (.pure _)) fun _ => .pure _) _ _).le h1
  have f2 := (fwd_putSlot (fun a s => GaugeAdapter.fwd_putSnapshot a s d) _ _).le h2
  have f3 := (fwd_putSlot (fun a s => M.Fwd.bind (Meter.fwd_putSnapshot _ _ _) fun _ => .pure _) _ _).le h3
  have f4 := (fwd_putSlot (fun a s => M.Fwd.bind (fwd_keeping (Histogram.fwd_putSnapshot _ _ _)) fun _ => .pure _) _ _).le h4
  refine ⟨?_, rfl⟩
  exact ((((rested_slot .counter (fun _ _ _ => rfl) h1).mono (by omega) (by omega)).append
    ((rested_gauge h2).mono (by omega) (by omega))).append
    ((rested_slot .meter (fun _ _ _ => rfl) h3).mono (by omega) (by omega))).append
    ((rested_slot .histogram (fun _ _ _ => rfl) h4).mono (by omega) (by omega))

mutual
theorem Panel.rested (hc : CustomForward σ L) {d : Bool} {p p' : Panel σ L} {s s' : Snapshot} {e : Env} {k k' : Nat}
    (h : p.putSnapshot d s e k = some ((p', s'), k')) : AllRested e k k' p.leaves p'.leaves := by
  match p with
  | .mk hd ps hs ss =>
    unfold Panel.putSnapshot at h
    simp only [M.bind_eq_some] at h
    obtain ⟨⟨g, lv⟩, k₀, h0, h⟩ := h
    have f0 := (Activity.fwd_putFlags _ _).le h0
    by_cases hg : g = true
    · simp only [hg, if_true, M.bind_eq_some, M.run_pure, Option.some.injEq, Prod.mk.injEq] at h
      obtain ⟨⟨a, s₁⟩, k₁, h1, ⟨b, s₂⟩, k₂, h2, ⟨c, s₃⟩, k₃, h3, ⟨f, s₄⟩, k₄, h4, ⟨rfl, rfl⟩, rfl⟩ := h
      have f1 := (PanelHead.fwd_putSlots _ _ _).le h1
      have f2 := (fwd_putPanels hc d ps _).le h2
      have f3 := (fwd_putSnapshooters hc d ss _).le h3
      have f4 := (fwd_putHandlers hc d hs _).le h4
      obtain ⟨r1, hf⟩ := PanelHead.rested (σ := σ) h1
      simp only [Panel.leaves, hf]
      exact AllRested.behind (((r1.mono (by omega) (by omega)).append ((restedPanels hc h2).mono (by omega) (by omega))).append
        ((restedHandlers hc h4).mono (by omega) (by omega))) _
    · simp only [hg] at h
      simp at h
      obtain ⟨⟨rfl, rfl⟩, rfl⟩ := h
      exact .refl _ _ _ _

theorem restedPanels (hc : CustomForward σ L) {d : Bool} {ps ps' : List (Panel σ L)} {s s' : Snapshot} {e : Env} {k k' : Nat}
    (h : putPanels d ps s e k = some ((ps', s'), k')) : AllRested e k k' (leavesOfPanels ps) (leavesOfPanels ps') := by
  match ps with
  | [] => unfold putPanels at h; simp at h; obtain ⟨⟨rfl, _⟩, _⟩ := h; unfold leavesOfPanels; exact .nil
  | p :: ps =>
    unfold putPanels at h
    simp only [M.bind_eq_some, M.run_pure, Option.some.injEq, Prod.mk.injEq] at h
    obtain ⟨⟨a, s₁⟩, k₁, h1, ⟨b, s₂⟩, k₂, h2, ⟨rfl, rfl⟩, rfl⟩ := h
    have f1 := (p.fwd_putSnapshot hc d _).le h1
    have f2 := (fwd_putPanels hc d ps _).le h2
    unfold leavesOfPanels
    exact ((Panel.rested hc h1).mono (by omega) (by omega)).append ((restedPanels hc h2).mono (by omega) (by omega))

theorem Handler.rested (hc : CustomForward σ L) {d : Bool} {x x' : Handler σ L} {s s' : Snapshot} {e : Env} {k k' : Nat}
    (h : x.putSnapshot d s e k = some ((x', s'), k')) : AllRested e k k' x.leaves x'.leaves := by
  match x with
  | .instrument a =>
    unfold Handler.putSnapshot at h
    simp only [M.bind_eq_some, M.run_pure, Option.some.injEq, Prod.mk.injEq] at h
    obtain ⟨⟨a', s₁⟩, k₁, h1, ⟨rfl, rfl⟩, rfl⟩ := h
    unfold Handler.leaves
    refine AllRested.one (d := d) (s := s) (s' := s₁) ?_
    simp only [Leaf.putSnapshot]; rw [M.run_bind_some h1]; rfl
  | .gauge a =>
    unfold Handler.putSnapshot at h
    simp only [M.bind_eq_some, M.run_pure, Option.some.injEq, Prod.mk.injEq] at h
    obtain ⟨⟨a', s₁⟩, k₁, h1, ⟨rfl, rfl⟩, rfl⟩ := h
    unfold Handler.leaves
    refine AllRested.one (d := d) (s := s) (s' := s₁) ?_
    simp only [Leaf.putSnapshot]; rw [M.run_bind_some h1]; rfl
  | .panel p =>
    unfold Handler.putSnapshot at h
    simp only [M.bind_eq_some, M.run_pure, Option.some.injEq, Prod.mk.injEq] at h
    obtain ⟨⟨a', s₁⟩, k₁, h1, ⟨rfl, rfl⟩, rfl⟩ := h
    unfold Handler.leaves
    exact Panel.rested hc h1
  | .cockpit hd ps hs ss =>
    unfold Handler.putSnapshot at h
    simp only [M.bind_eq_some] at h
    obtain ⟨⟨g, lv⟩, k₀, h0, h⟩ := h
    have f0 := (Activity.fwd_putFlags _ _).le h0
    by_cases hg : g = true
    · simp only [hg, if_true, M.bind_eq_some, M.run_pure, Option.some.injEq, Prod.mk.injEq] at h
      obtain ⟨⟨b, s₂⟩, k₂, h2, ⟨f, s₄⟩, k₄, h4, ⟨c, s₃⟩, k₃, h3, ⟨rfl, rfl⟩, rfl⟩ := h
      have f2 := (fwd_putPanels hc d ps _).le h2
      have f3 := (fwd_putSnapshooters hc d ss _).le h3
      have f4 := (fwd_putHandlers hc d hs _).le h4
      unfold Handler.leaves
      exact .cons ⟨rfl, .inl rfl⟩ (((restedHandlers hc h4).mono (by omega) (by omega)).append
        ((restedPanels hc h2).mono (by omega) (by omega)))
    · simp only [hg] at h
      simp at h
      obtain ⟨⟨rfl, rfl⟩, rfl⟩ := h
      exact .refl _ _ _ _
  | .custom c =>
    unfold Handler.putSnapshot at h
    simp only [M.bind_eq_some, M.run_pure, Option.some.injEq, Prod.mk.injEq] at h
    obtain ⟨⟨a', s₁⟩, k₁, h1, ⟨rfl, rfl⟩, rfl⟩ := h
    unfold Handler.leaves
    refine AllRested.one (d := d) (s := s) (s' := s₁) ?_
    simp only [Leaf.putSnapshot]; rw [M.run_bind_some h1]; rfl

theorem restedHandlers (hc : CustomForward σ L) {d : Bool} {hs hs' : List (Handler σ L)} {s s' : Snapshot} {e : Env}
    {k k' : Nat} (h : putHandlers d hs s e k = some ((hs', s'), k')) :
    AllRested e k k' (leavesOfHandlers hs) (leavesOfHandlers hs') := by
  match hs with
  | [] => unfold putHandlers at h; simp at h; obtain ⟨⟨rfl, _⟩, _⟩ := h; unfold leavesOfHandlers; exact .nil
  | p :: ps =>
    unfold putHandlers at h
    simp only [M.bind_eq_some, M.run_pure, Option.some.injEq, Prod.mk.injEq] at h
    obtain ⟨⟨a, s₁⟩, k₁, h1, ⟨b, s₂⟩, k₂, h2, ⟨rfl, rfl⟩, rfl⟩ := h
    have f1 := (p.fwd_putSnapshot hc d _).le h1
    have f2 := (fwd_putHandlers hc d ps _).le h2
    unfold leavesOfHandlers
    exact ((Handler.rested hc h1).mono (by omega) (by omega)).append ((restedHandlers hc h2).mono (by omega) (by omega))
end

theorem Cockpit.rested (hc : CustomForward σ L) {d : Bool} {c c' : Cockpit σ L} {s s' : Snapshot} {e : Env} {k k' : Nat}
    (h : c.putSnapshot s d e k = some ((c', s'), k')) : AllRested e k k' c.leaves c'.leaves := by
  unfold Cockpit.putSnapshot at h
  simp only [M.bind_eq_some] at h
  obtain ⟨⟨g, lv⟩, k₀, h0, h⟩ := h
  have f0 := (Activity.fwd_putFlags _ _).le h0
  by_cases hg : g = true
  · simp only [hg, if_true, M.bind_eq_some, M.run_pure, Option.some.injEq, Prod.mk.injEq] at h
    obtain ⟨⟨b, s₂⟩, k₂, h2, ⟨f, s₄⟩, k₄, h4, ⟨x, s₃⟩, k₃, h3, ⟨rfl, rfl⟩, rfl⟩ := h
    have f2 := (fwd_putPanels hc d _ _).le h2
    have f3 := (fwd_putSnapshooters hc d _ _).le h3
    have f4 := (fwd_putHandlers hc d _ _).le h4
    exact .cons ⟨rfl, .inl rfl⟩ (((restedHandlers hc h4).mono (by omega) (by omega)).append
      ((restedPanels hc h2).mono (by omega) (by omega)))
  · simp only [hg] at h
    simp at h
    obtain ⟨⟨rfl, rfl⟩, rfl⟩ := h
    exact .refl _ _ _ _

/-! ## Observations and leaves -/

variable [DecidableEq L]

theorem Leaf.fwd_react (hc : CustomForward σ L) (o : Observation L) (x : Leaf σ L) : M.Fwd (x.react o) := by
  cases x with
  | instrument a => exact .bind (InstrumentAdapter.fwd_handle (fun i u => i.fwd_update hc u) _ _) fun _ => .pure _
  | gauge a => exact .bind (GaugeAdapter.fwd_handle _ _) fun _ => .pure _
  | custom s => exact .bind (hc.handle _ _) fun _ => .pure _
  | lastActivity t => exact .bind .now fun _ => .pure _

theorem fwd_dispatch (hc : CustomForward σ L) (o : Observation L) (l : List (Placed σ L)) : M.Fwd (dispatch o l) := by
  induction l with
  | nil => exact .pure _
  | cons x l ih =>
    obtain ⟨path, leaf⟩ := x
    simp only [dispatch]
    split
    · exact .bind (Leaf.fwd_react hc o leaf) fun _ => .bind ih fun _ => .pure _
    · exact .bind (.pure _) fun _ => .bind ih fun _ => .pure _

/-- What a dispatched observation does to the `j`-th leaf. -/
theorem dispatch_leaf (hc : CustomForward σ L) {o : Observation L} {l l' : List (Placed σ L)} {n : Nat} {e : Env}
    {k k' : Nat} (h : dispatch o l e k = some ((l', n), k')) {j : Nat} {path : List (LabelFilter L)} {leaf : Leaf σ L}
    (hj : l[j]? = some (path, leaf)) :
    if passes path o = true then
      ∃ k₁ k₂ leaf' m, k ≤ k₁ ∧ k₂ ≤ k' ∧ leaf.react o e k₁ = some ((leaf', m), k₂) ∧ l'[j]? = some (path, leaf')
    else l'[j]? = some (path, leaf) ∧ k ≤ k' := by
  have hfwd := (fwd_dispatch hc o l).le h
  induction l generalizing l' n k j with
  | nil => simp at hj
  | cons x l ih =>
    obtain ⟨path₀, leaf₀⟩ := x
    simp only [dispatch] at h
    by_cases hp : path₀.all (·.accepts o.label) = true
    · rw [if_pos hp] at h
      simp only [M.bind_eq_some, M.run_pure, Option.some.injEq, Prod.mk.injEq] at h
      obtain ⟨⟨leaf', n₁⟩, k₁, h1, ⟨rest', n₂⟩, k₂, h2, ⟨rfl, rfl⟩, rfl⟩ := h
      have f1 := (Leaf.fwd_react hc o _).le h1
      have f2 := (fwd_dispatch hc o _).le h2
      cases j with
      | zero =>
        simp only [List.getElem?_cons_zero, Option.some.injEq, Prod.mk.injEq] at hj
        obtain ⟨rfl, rfl⟩ := hj
        rw [if_pos (by simpa [passes] using hp)]
        exact ⟨k, k₁, leaf', n₁, Nat.le_refl _, f2, h1, by simp⟩
      | succ j =>
        simp only [List.getElem?_cons_succ] at hj ⊢
        have := ih h2 hj f2
        split at this
        · rename_i hpa
          rw [if_pos hpa]
          obtain ⟨j₁, j₂, x, m, a, b, c, d⟩ := this
          exact ⟨j₁, j₂, x, m, by omega, b, c, d⟩
        · rename_i hpa
          rw [if_neg hpa]
          exact ⟨this.1, hfwd⟩
    · rw [if_neg hp] at h
      simp only [M.bind_eq_some, M.run_pure, Option.some.injEq, Prod.mk.injEq] at h
      obtain ⟨_, k₁, ⟨rfl, rfl⟩, ⟨rest', n₂⟩, k₂, h2, ⟨rfl, rfl⟩, rfl⟩ := h
      have f2 := (fwd_dispatch hc o _).le h2
      cases j with
      | zero =>
        simp only [List.getElem?_cons_zero, Option.some.injEq, Prod.mk.injEq] at hj
        obtain ⟨rfl, rfl⟩ := hj
        rw [if_neg (by simpa [passes] using hp)]
        exact ⟨by simp, f2⟩
      | succ j =>
        simp only [List.getElem?_cons_succ] at hj ⊢
        exact ih h2 hj f2

omit [DecidableEq L] in
/-- What a put snapshot does to the `j`-th leaf. -/
theorem AllRested.leaf {e : Env} {k k' : Nat} {l l' : List (Placed σ L)} (h : AllRested e k k' l l') {j : Nat}
    {path : List (LabelFilter L)} {leaf : Leaf σ L} (hj : l[j]? = some (path, leaf)) :
    ∃ leaf', l'[j]? = some (path, leaf') ∧ Rested e k k' (path, leaf) (path, leaf') := by
  induction h generalizing j with
  | nil => simp at hj
  | @cons x y l l' hxy _ ih =>
    cases j with
    | zero =>
      simp only [List.getElem?_cons_zero, Option.some.injEq] at hj ⊢
      subst hj
      obtain ⟨py, ly⟩ := y
      obtain ⟨rfl, h2⟩ := hxy
      exact ⟨ly, rfl, rfl, h2⟩
    | succ j => simpa using ih hj

/-- The history of a component's leaf: it sees the observations that get through the filters on its path. -/
theorem leaf_history {C : Type} [Component C (Observation L)] (hc : CustomForward σ L) (leaves : C → List (Placed σ L))
    (hd : ∀ (c c' : C) o n e k k', Component.take c o e k = some ((c', n), k') →
      dispatch o (leaves c) e k = some ((leaves c', n), k'))
    (hr : ∀ (c c' : C) s d s' e k k', Component.putSnapshot c s d e k = some ((c', s'), k') →
      AllRested e k k' (leaves c) (leaves c') ∧ k ≤ k')
    {e : Env} {k k' : Nat} {c c' : C} {log : List (Event (Observation L))} (h : History e k c log k' c') {j : Nat}
    {path : List (LabelFilter L)} {leaf : Leaf σ L} (hj : (leaves c)[j]? = some (path, leaf)) :
    ∃ log' leaf', History e k leaf log' k' leaf' ∧ (leaves c')[j]? = some (path, leaf') ∧
      inputs log' = (inputs log).filter (passes path) := by
  let get : C → Option (Leaf σ L) := fun c =>
    match (leaves c)[j]? with
    | some (p, x) => haveI := Classical.dec (p = path); if p = path then some x else none
    | none => none
  have hget : ∀ c x, get c = some x ↔ (leaves c)[j]? = some (path, x) := by
    intro c x
    simp only [get]
    cases hl : (leaves c)[j]? with
    | none => simp
    | some y =>
      obtain ⟨p, y⟩ := y
      by_cases hp : p = path
      · subst hp; simp
      · simp [hp]
  obtain ⟨log', leaf', h1, h2, h3⟩ := History.project get
    (fun o => if passes path o = true then some o else none) (fun _ => True)
    (by
      intro c o c' n k k' d ht _ hg
      have := dispatch_leaf hc (hd _ _ _ _ _ _ _ ht) ((hget _ _).mp hg)
      by_cases hp : passes path o = true
      · rw [if_pos hp] at this
        simp only [if_pos hp]
        obtain ⟨k₁, k₂, x, m, a, b, c', d'⟩ := this
        exact ⟨k₁, k₂, x, m, a, b, c', (hget _ _).mpr d'⟩
      · rw [if_neg hp] at this
        simp only [if_neg hp]
        exact ⟨(hget _ _).mpr this.1, this.2⟩)
    (by
      intro c s b c' s' k k' d ht hg
      obtain ⟨hrest, hk⟩ := hr _ _ _ _ _ _ _ _ ht
      obtain ⟨x, hx, _, h | ⟨k₁, k₂, d', s₁, s₂, h1, h2, h3⟩⟩ := hrest.leaf ((hget _ _).mp hg)
      · simp only at h; subst h; exact .inl ⟨(hget _ _).mpr hx, hk⟩
      · exact .inr ⟨k₁, k₂, x, s₁, s₂, d', h1, h2, h3, (hget _ _).mpr hx⟩)
    h (fun _ _ => trivial) ((hget _ _).mpr hj)
  refine ⟨log', leaf', h1, (hget _ _).mp h2, ?_⟩
  rw [h3, ← List.filterMap_eq_filter]
  rfl

theorem Panel.leaf_history (hc : CustomForward σ L) {e : Env} {k k' : Nat} {p p' : Panel σ L}
    {log : List (Event (Observation L))} (h : History e k p log k' p') {j : Nat} {path : List (LabelFilter L)}
    {leaf : Leaf σ L} (hj : p.leaves[j]? = some (path, leaf)) :
    ∃ log' leaf', History e k leaf log' k' leaf' ∧ p'.leaves[j]? = some (path, leaf') ∧
      inputs log' = (inputs log).filter (passes path) := by
  refine Metrix.leaf_history hc (fun p : Panel σ L => p.leaves) ?_ ?_ h hj
  · intro c c' o n e k k' ht
    rw [Panel.dispatch]; exact M.run_bind_some ht
  · intro c c' s d s' e k k' ht
    exact ⟨Panel.rested hc ht, (c.fwd_putSnapshot hc d s).le ht⟩

theorem Handler.leaf_history (hc : CustomForward σ L) {e : Env} {k k' : Nat} {p p' : Handler σ L}
    {log : List (Event (Observation L))} (h : History e k p log k' p') {j : Nat} {path : List (LabelFilter L)}
    {leaf : Leaf σ L} (hj : p.leaves[j]? = some (path, leaf)) :
    ∃ log' leaf', History e k leaf log' k' leaf' ∧ p'.leaves[j]? = some (path, leaf') ∧
      inputs log' = (inputs log).filter (passes path) := by
  refine Metrix.leaf_history hc (fun p : Handler σ L => p.leaves) ?_ ?_ h hj
  · intro c c' o n e k k' ht
    rw [Handler.dispatch]; exact M.run_bind_some ht
  · intro c c' s d s' e k k' ht
    exact ⟨Handler.rested hc ht, (c.fwd_putSnapshot hc d s).le ht⟩

theorem Cockpit.leaf_history (hc : CustomForward σ L) {e : Env} {k k' : Nat} {p p' : Cockpit σ L}
    {log : List (Event (Observation L))} (h : History e k p log k' p') {j : Nat} {path : List (LabelFilter L)}
    {leaf : Leaf σ L} (hj : p.leaves[j]? = some (path, leaf)) :
    ∃ log' leaf', History e k leaf log' k' leaf' ∧ p'.leaves[j]? = some (path, leaf') ∧
      inputs log' = (inputs log).filter (passes path) := by
  refine Metrix.leaf_history hc (fun p : Cockpit σ L => p.leaves) ?_ ?_ h hj
  · intro c c' o n e k k' ht
    rw [Cockpit.dispatch]; exact M.run_bind_some ht
  · intro c c' s d s' e k k' ht
    exact ⟨Cockpit.rested hc ht, (c.fwd_putSnapshot hc s d).le ht⟩

end Metrix
