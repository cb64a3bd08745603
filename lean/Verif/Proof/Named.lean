import Verif.Proof.Append
import Verif.Proof.Mount

/-! Named components put what they would put without a name, one level deeper. -/

namespace Metrix
variable {σ L : Type}

theorem run_map {α β : Type} (f : α → β) (x : M α) (e : Env) (k : Nat) :
    (f <$> x) e k = (x e k).map fun r => (f r.1, r.2) := by
  show (x >>= fun a => pure (f a)) e k = _
  cases h : x e k with
  | none => simp [M.run_bind_none h]
  | some r => simp [M.run_bind_some h]


theorem PanelHead.putSlots_unnamed (h : PanelHead L) (into : Snapshot) (d : Bool) :
    PanelHead.putSlots { h with name := none } into d =
      (fun r => ({ r.1 with name := none }, r.2)) <$> h.putSlots into d := by
  simp only [PanelHead.putSlots, map_bind, map_pure]

/-- The head of a panel keeps its name. -/
theorem PanelHead.putSlots_rename (h : PanelHead L) (into : Snapshot) (d : Bool) :
    h.putSlots into d = (fun r => ({ r.1 with name := h.name }, r.2)) <$> h.putSlots into d := by
  simp only [PanelHead.putSlots, map_bind, map_pure]

variable [Custom σ L]

theorem Panel.putSnapshot_named (d : Bool) {h : PanelHead L} {n : String} (hn : h.name = some n)
    (ps : List (Panel σ L)) (hs : List (Handler σ L)) (ss : List (Snapshooter σ L)) (into : Snapshot) :
    (Panel.mk h ps hs ss).putSnapshot d into =
      (fun r => (Panel.setName r.1 n, into ++ [(n, .snapshot r.2)])) <$>
        (Panel.mk { h with name := none } ps hs ss).putSnapshot d [] := by
  unfold Panel.putSnapshot
  simp only [PanelHead.putSlots_unnamed, hn, levelFor, map_bind]
  congr 1; funext r
  split
  · rw [PanelHead.putSlots_rename h]
    simp [Panel.setName, closeLevel, Snapshot.push, hn]
  · simp [Panel.setName, closeLevel, Snapshot.push, ← hn]

theorem Handler.putSnapshot_named (d : Bool) {h : CockpitHead} {n : String} (hn : h.name = some n)
    (ps : List (Panel σ L)) (hs : List (Handler σ L)) (ss : List (Snapshooter σ L)) (into : Snapshot) :
    (Handler.cockpit h ps hs ss).putSnapshot d into =
      (fun r => (match r.1 with
          | .cockpit h ps hs ss => .cockpit { h with name := some n } ps hs ss
          | x => x, into ++ [(n, .snapshot r.2)])) <$>
        (Handler.cockpit { h with name := none } ps hs ss).putSnapshot d [] := by
  unfold Handler.putSnapshot
  simp only [hn, levelFor, map_bind]
  congr 1; funext r
  split <;> simp [closeLevel, Snapshot.push, ← hn]

theorem Cockpit.putSnapshot_named (d : Bool) {c : Cockpit σ L} {n : String} (hn : c.name = some n) (into : Snapshot) :
    c.putSnapshot into d =
      (fun r => (r.1.setName n, into ++ [(n, .snapshot r.2)])) <$>
        ({ c with head := { c.head with name := none } } : Cockpit σ L).putSnapshot [] d := by
  have hn' : c.head.name = some n := hn
  unfold Cockpit.putSnapshot
  simp only [hn', levelFor, map_bind]
  congr 1; funext r
  split <;> simp [closeLevel, Snapshot.push, Cockpit.setName, ← hn']

theorem ProcessorState.putSnapshot_named (d : Bool) {s : ProcessorState σ L} {n : String} (hn : s.name = some n)
    (into : Snapshot) :
    s.putSnapshot into d =
      (fun r => (r.1.setName n, into ++ [(n, .snapshot r.2)])) <$>
        ({ s with name := none } : ProcessorState σ L).putSnapshot [] d := by
  unfold ProcessorState.putSnapshot
  simp only [hn, levelFor, map_bind]
  congr 1; funext r
  split <;> simp [closeLevel, Snapshot.push, ProcessorState.setName, ← hn]

variable [CustomProcessor σ]

/-- Give a mount the name. -/
def Node.setName (n : String) : Node σ L → Node σ L
  | .mount h ns ss => .mount { h with name := some n } ns ss
  | .attached h ns ss inbox => .attached { h with name := some n } ns ss inbox
  | x => x

theorem Node.putSnapshot_mount (d : Bool) {h : MountHead} {n : String} (hn : h.name = some n)
    (ns : List (Node σ L)) (ss : List (Snapshooter σ L)) (into : Snapshot) :
    (Node.mount h ns ss).putSnapshot d into =
      (fun r => (r.1.setName n, into ++ [(n, .snapshot r.2)])) <$>
        (Node.mount { h with name := none } ns ss).putSnapshot d [] := by
  unfold Node.putSnapshot
  simp only [hn, levelFor, map_bind]
  congr 1; funext r
  split <;> simp [closeLevel, Snapshot.push, Node.setName, ← hn]

theorem Node.putSnapshot_attached (d : Bool) {h : MountHead} {n : String} (hn : h.name = some n)
    (ns : List (Node σ L)) (ss : List (Snapshooter σ L)) (inbox : List (Arrivals (Node σ L) (Snapshooter σ L)))
    (into : Snapshot) :
    (Node.attached h ns ss inbox).putSnapshot d into =
      (fun r => (r.1.setName n, into ++ [(n, .snapshot r.2)])) <$>
        (Node.attached { h with name := none } ns ss inbox).putSnapshot d [] := by
  unfold Node.putSnapshot
  simp only [hn, levelFor, map_bind]
  congr 1; funext r
  split <;> simp [closeLevel, Snapshot.push, Node.setName, ← hn]

/-! ## Appending, for processors and mounts -/

omit [CustomProcessor σ] in
theorem appendsCockpits (hc : CustomAppends σ L) (d : Bool) (cs : List (Cockpit σ L)) (into : Snapshot) :
    Appends into (putCockpits d cs into) := by
  induction cs generalizing into with
  | nil => exact .pure List.prefix_rfl
  | cons c cs ih => exact (c.appends hc d into).seq fun r => (ih r.2).seq fun r => .pure List.prefix_rfl

omit [CustomProcessor σ] in
theorem ProcessorState.appends (hc : CustomAppends σ L) (d : Bool) (s : ProcessorState σ L) (into : Snapshot) :
    Appends into (s.putSnapshot into d) := by
  refine .bind _ (s.activity.appends _) fun g hg => .ite ?_ (.pure ?_)
  · refine .bind _ (appendsCockpits hc d _ _) fun r2 h2 => .bind _ (appendsHandlers hc d _ _) fun r4 h4 =>
      .bind _ (appendsSnapshooters hc d _ _) fun r3 h3 => .pure ?_
    exact prefix_closeLevel (((prefix_default _ _ _).trans hg).trans (h2.trans (h4.trans h3)))
  · exact prefix_closeLevel ((prefix_default _ _ _).trans hg)

omit [CustomProcessor σ] in
theorem Processor.appends (hc : CustomAppends σ L) (d : Bool) (p : Processor σ L) (into : Snapshot) :
    Appends into (p.putSnapshot into d) :=
  (p.state.appends hc d into).seq fun _ => .pure List.prefix_rfl

/-- User defined processors append as well. -/
def CustomProcessorAppends (σ : Type) [CustomProcessor σ] : Prop :=
  ∀ (s : σ) (into : Snapshot) (d : Bool) (e : Env) (k : Nat) (s' : σ) (into' : Snapshot) (k' : Nat),
    CustomProcessor.putSnapshot s into d e k = some ((s', into'), k') → into <+: into'

theorem prefix_putAnswer (d : Bool) (as : List (Bool → Option Snapshot)) (into : Snapshot) :
    into <+: (putAnswer d as into).2 := by
  unfold putAnswer
  split
  · exact List.prefix_rfl
  · split
    · exact List.prefix_append _ _
    · exact List.prefix_rfl

mutual
theorem Node.appends (hc : CustomAppends σ L) (hp : CustomProcessorAppends σ) (d : Bool) (n : Node σ L)
    (into : Snapshot) : Appends into (n.putSnapshot d into) := by
  match n with
  | .processor p => unfold Node.putSnapshot; exact (p.appends hc d into).seq fun _ => .pure List.prefix_rfl
  | .mount h ns ss =>
    unfold Node.putSnapshot
    refine .bind _ (h.activity.appends _) fun g hg => .ite ?_ (.pure ?_)
    · refine .bind _ (appendsNodes hc hp d ns _) fun r2 h2 => .bind _ (appendsSnapshooters hc d ss _) fun r3 h3 => .pure ?_
      exact prefix_closeLevel (((prefix_default _ _ _).trans hg).trans (h2.trans h3))
    · exact prefix_closeLevel ((prefix_default _ _ _).trans hg)
  | .attached h ns ss inbox =>
    unfold Node.putSnapshot
    refine .bind _ (h.activity.appends _) fun g hg => .ite ?_ (.pure ?_)
    · refine .bind _ (appendsNodes hc hp d ns _) fun r2 h2 => .bind _ (appendsSnapshooters hc d ss _) fun r3 h3 => .pure ?_
      exact prefix_closeLevel (((prefix_default _ _ _).trans hg).trans (h2.trans h3))
    · exact prefix_closeLevel ((prefix_default _ _ _).trans hg)
  | .driver as => unfold Node.putSnapshot; exact .pure (prefix_putAnswer d as into)
  | .custom s =>
    unfold Node.putSnapshot
    exact Appends.seq (fun e k r k' hr => hp s into d e k r.1 r.2 k' hr) fun _ => .pure List.prefix_rfl

theorem appendsNodes (hc : CustomAppends σ L) (hp : CustomProcessorAppends σ) (d : Bool) (ns : List (Node σ L))
    (into : Snapshot) : Appends into (putNodes d ns into) := by
  match ns with
  | [] => unfold putNodes; exact .pure List.prefix_rfl
  | n :: ns =>
    unfold putNodes
    exact (n.appends hc hp d into).seq fun r => (appendsNodes hc hp d ns r.2).seq fun r => .pure List.prefix_rfl
end

end Metrix
