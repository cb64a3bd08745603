import Verif.Proof.Schema
import Verif.Props.C67
import Verif.Props.C55

/-!
# C70 Snapshots keep to a fixed schema

The schema of a component (`slots`, see `Verif.Spec.Schema`) says which keys there are in its snapshots, in which order, which
kinds of values they have, which of them may be missing, and which are missing together. It depends on what was configured,
but not on what was observed. All snapshots of a component fit its schema, no matter how often it is used, by whom and when.
-/

namespace Metrix
variable {σ L : Type} {u : Bool → List Slot}

/-! ## Instruments, panels and cockpits -/

section
variable [DecidableEq L] [Custom σ L] {e : Env} {k k' : Nat}

/-- Whatever is observed by a handler (an instrument, a panel, a cockpit) and whenever snapshots are taken of it: each of them
fits the schema it had in the beginning. -/
theorem C70_handler (hc : CustomFits σ L u) {h h' : Handler σ L} {log : List (Event (Observation L))}
    (hh : History e k h log k' h') {ev : Event (Observation L)} (hev : ev ∈ log) {into s : Snapshot} {d : Bool}
    (hop : ev.op = .snapshot into d) (hout : ev.out = .snapshot s) :
    ∃ items, s = into ++ items ∧ Conforms (h.slots u d) items := by
  induction hh with
  | nil => cases hev
  | @cons k k₁ k₂ k' c c₁ c' op out log _ hs _ ih =>
    rcases List.mem_cons.mp hev with rfl | hin
    · dsimp only at hop hout
      subst hop
      obtain ⟨s', hout', hs⟩ := step_snapshot_eq_some.mp hs
      rw [hout] at hout'
      cases hout'
      exact c.adds hc d into _ _ _ _ hs
    · have hb : c₁.bare = c.bare := by
        cases op with
        | input o =>
          obtain ⟨n, _, hs⟩ := step_input_eq_some.mp hs
          exact c.keepsBare_handle o _ _ _ _ hs
        | snapshot s d =>
          obtain ⟨n, _, hs⟩ := step_snapshot_eq_some.mp hs
          exact c.keepsBare_putSnapshot d s _ _ _ _ hs
      have := ih hin
      rwa [← Handler.slots_bare, hb, Handler.slots_bare] at this
end

/-- The kinds of the values in observations. -/
def observedKinds : List Kind := [.int, .uint, .float, .boolean]

theorem ObservedValue.toItemKind_kind {o : ObservedValue} {v : ItemKind} (h : o.toItemKind = some v) :
    ∃ k ∈ observedKinds, v.kind = some k := by
  cases o <;> simp only [ObservedValue.toItemKind, Option.some.injEq, reduceCtorEq] at h <;> subst h <;>
    simp [ItemKind.kind, observedKinds]

/-- What a display may show as its value. -/
def DataDisplay.MayShow (t : DataDisplay) (v : ItemKind) : Prop := t.resetValue = some v ∨ ∃ k ∈ observedKinds, v.kind = some k

theorem DataDisplay.mayShow_update (t : DataDisplay) (u : Update) (ht : ∀ v, t.value = some v → t.MayShow v) :
    M.Post (t.update u) fun r => (∀ v, r.1.value = some v → r.1.MayShow v) ∧ r.1.name = t.name ∧ r.1.descr = t.descr ∧
      r.1.resetValue = t.resetValue := by
  unfold DataDisplay.update
  cases hu : u.observedValue.bind ObservedValue.toItemKind with
  | none => exact .pure ⟨ht, rfl, rfl, rfl⟩
  | some v =>
    have hv : ∃ k ∈ observedKinds, v.kind = some k := by
      obtain ⟨o, _, ho⟩ := Option.bind_eq_some_iff.mp hu
      exact o.toItemKind_kind ho
    simp only
    cases hr : t.resetAfter with
    | none => exact .pure ⟨fun w hw => by cases hw; exact .inr hv, rfl, rfl, rfl⟩
    | some r =>
      exact .bindAny fun _ => .bindAny fun _ => .pure ⟨fun w hw => by cases hw; exact .inr hv, rfl, rfl, rfl⟩

/-- A display that begins with its reset value shows this one, a number or a boolean, and nothing else. -/
theorem C70_display {e : Env} {k k' : Nat} {t t' : DataDisplay} {log : List (Event Update)}
    (h : History e k t log k' t') (ht : t.value = t.resetValue) {ev : Event Update} (hev : ev ∈ log) {into s : Snapshot} {d : Bool}
    (hop : ev.op = .snapshot into d) (hout : ev.out = .snapshot s) :
    ∃ items, s = into ++ items ∧
      (Conforms (t.descr.slotsFor t.name d) items ∨
       Conforms (t.descr.slotsFor t.name d ++ [.value t.name [.int, .uint, .float, .boolean]]) items ∨
       ∃ v, t.resetValue = some v ∧ Conforms (t.descr.slotsFor t.name d ++ [.fixed t.name v]) items) := by
  replace ht : ∀ v, t.value = some v → t.MayShow v := fun v hv => .inl (ht ▸ hv)
  induction h with
  | nil => cases hev
  | @cons k k₁ k₂ k' c c₁ c' op out log _ hs _ ih =>
    rcases List.mem_cons.mp hev with rfl | hin
    · dsimp only at hop hout
      subst hop
      obtain ⟨s', hout', hs⟩ := step_snapshot_eq_some.mp hs
      rw [hout] at hout'
      cases hout'
      obtain ⟨-, hs⟩ := keeping_eq_some.mp hs
      simp only [DataDisplay.putSnapshot, M.bind_eq_some] at hs
      obtain ⟨o, k₃, h1, h2⟩ := hs
      have ho : ∀ v, o = some v → c.MayShow v := by
        unfold DataDisplay.shown at h1
        cases hst : c.stayOnUntil with
        | none =>
          simp only [hst, M.run_pure, Option.some.injEq, Prod.mk.injEq] at h1
          rw [← h1.1]; exact ht
        | some x =>
          simp only [hst, M.bind_eq_some, M.run_now, M.run_pure, Option.some.injEq, Prod.mk.injEq] at h1
          obtain ⟨_, _, ⟨rfl, rfl⟩, rfl, rfl⟩ := h1
          intro v hv
          split at hv
          · exact ht v hv
          · exact .inl hv
      obtain ⟨x, hx, hfit⟩ := grows_postfixed c.descr c.name into d
      cases o with
      | none =>
        simp only [M.run_pure, Option.some.injEq, Prod.mk.injEq] at h2
        exact ⟨x, by rw [← h2.1, hx], .inl hfit⟩
      | some v =>
        simp only [M.run_pure, Option.some.injEq, Prod.mk.injEq] at h2
        refine ⟨x ++ [(c.name, v)], by rw [← h2.1, hx]; simp [Snapshot.push], .inr ?_⟩
        rcases ho v rfl with hv | ⟨kd, hk, hv⟩
        · exact .inr ⟨v, hv, hfit.append (.one .fixed)⟩
        · exact .inl (hfit.append (.one (.value hv hk)))
    · cases op with
      | input o =>
        obtain ⟨n, _, hs⟩ := step_input_eq_some.mp hs
        obtain ⟨h1, h2, h3, h4⟩ := c.mayShow_update o ht _ _ _ _ hs
        have := ih hin h1
        dsimp only at h2 h3 h4
        rwa [h2, h3, h4] at this
      | snapshot s d =>
        obtain ⟨n, _, hs⟩ := step_snapshot_eq_some.mp hs
        obtain ⟨rfl, -⟩ := keeping_eq_some.mp hs
        exact ih hin ht

/-! ## Processors -/

theorem Took.expects {μ : Type} {P : μ → Prop} {c c' : Channel μ} {ms : List μ} (h : Took c c' ms) (hc : c.Expects P) :
    c'.Expects P := by
  obtain ⟨⟨as, _, rfl⟩, -⟩ := h
  exact Channel.acts_induction (P := fun d => d.Expects P) (fun d a hd => hd.act a) c as hc

section
variable [DecidableEq L] [Custom σ L] {e : Env} {k k' : Nat} {p p' : Processor σ L}

theorem Life.before {log before after : List (Called σ L)} {c : Called σ L} (h : Life e k p log k' p')
    (hlog : log = before ++ c :: after) :
    ∃ k₁ p₁ k₂ p₂, Life e k p before k₁ p₁ ∧ p₁.call c.call e c.start = some ((p₂, c.reply), k₂) := by
  induction h generalizing before with
  | nil => simp at hlog
  | @cons k k₁ k₂ k' p p₁ p' c₁ r log h1 h2 h3 ih =>
    cases before with
    | nil =>
      simp only [List.nil_append, List.cons.injEq] at hlog
      obtain ⟨rfl, rfl⟩ := hlog
      exact ⟨k, p, k₂, p₁, .nil (Nat.le_refl _), h2⟩
    | cons b before =>
      simp only [List.cons_append, List.cons.injEq] at hlog
      obtain ⟨rfl, rfl⟩ := hlog
      obtain ⟨k₃, p₂, k₄, p₃, h4, h5⟩ := ih rfl
      exact ⟨k₃, p₂, k₄, p₃, .cons h1 h2 h4, h5⟩

/-- As long as a processor is not reconfigured, all of its snapshots fit its schema: whatever is sent to it by whichever
threads, processed or dropped, in between. -/
theorem C70_processor (hc : CustomFits σ L u) {log : List (Called σ L)} (h : Life e k p log k' p')
    (hcalls : ∀ c ∈ log, c.call.isSetting = false) (hmessages : p.receiver.chan.Expects (·.isSetting = false))
    {c : Called σ L} (hcl : c ∈ log) {into s : Snapshot} {d : Bool} (hcall : c.call = .snapshot into d)
    (hreply : c.reply = .snapshot s) :
    ∃ items, s = into ++ items ∧ Conforms (p.state.slots u d) items := by
  obtain ⟨before, after, hlog⟩ := List.append_of_mem hcl
  obtain ⟨k₁, p₁, k₂, p₂, h1, h2⟩ := h.before hlog
  have hb := C67_unchanged h1 (fun x hx => hcalls x (by rw [hlog]; simp [hx])) hmessages
  rw [hcall, hreply] at h2
  simp only [Processor.call, Processor.putSnapshot, M.bind_eq_some, M.run_pure, Option.some.injEq, Prod.mk.injEq,
    Reply.snapshot.injEq] at h2
  obtain ⟨⟨q, s'⟩, k₃, ⟨⟨st, s''⟩, k₄, h3, ⟨rfl, rfl⟩, rfl⟩, ⟨rfl, rfl⟩, rfl⟩ := h2
  have := p₁.state.adds hc d into _ _ _ _ h3
  rwa [← ProcessorState.slots_bare, hb, ProcessorState.slots_bare] at this

theorem Processor.settled {max : Nat} {s : Strategy} {o : Outcome} (h : p.process max s e k = some ((p', o), k'))
    (hp : p.receiver.chan.Expects (·.isSetting = false)) :
    p'.receiver.chan.Expects (·.isSetting = false) ∧ p'.state.bare = p.state.bare := by
  have hl : Life e k p [⟨k, .process max s, .outcome o⟩] k' p' :=
    .cons (Nat.le_refl _) (by simp only [Processor.call, M.bind_eq_some]; exact ⟨_, _, h, rfl⟩) (.nil (Nat.le_refl _))
  obtain ⟨consumed, _, htook⟩ := life_story hl
  exact ⟨htook.expects hp, C67_unchanged hl (by simp [Call.isSetting]) hp⟩

end

/-! ## Mounts -/

mutual
/-- Nobody is going to reconfigure anything below the node: no message configures a processor, nothing is attached, and
mounted drivers answer according to their schema. -/
def Node.Settled (u : Outside) : Node σ L → Prop
  | .processor p => p.receiver.chan.Expects (·.isSetting = false)
  | .mount _ ns _ => SettledNodes u ns
  | .attached _ ns _ inbox => SettledNodes u ns ∧ ∀ a ∈ inbox, a.processors = [] ∧ a.snapshooters = []
  | .driver as => ∀ a ∈ as, ∀ d s, a d = some s → Conforms (u.answers d) s
  | .custom _ => True

def SettledNodes (u : Outside) : List (Node σ L) → Prop
  | [] => True
  | n :: ns => n.Settled u ∧ SettledNodes u ns
end

theorem settledNodes_iff {u : Outside} {ns : List (Node σ L)} : SettledNodes u ns ↔ ∀ n ∈ ns, n.Settled u := by
  induction ns with
  | nil => simp [SettledNodes]
  | cons n ns ih => simp [SettledNodes, ih]

theorem nodeSlots_append {u : Outside} {d : Bool} (a b : List (Node σ L)) :
    nodeSlots u d (a ++ b) = nodeSlots u d a ++ nodeSlots u d b := by
  induction a with
  | nil => simp [nodeSlots]
  | cons n ns ih => simp [nodeSlots, ih]

/-- What user defined processors put fits the schema. -/
def CustomProcessorFits (σ : Type) [CustomProcessor σ] (u : Bool → List Slot) : Prop :=
  ∀ (s : σ) (into : Snapshot) (d : Bool) (e : Env) (k : Nat) (s' : σ) (into' : Snapshot) (k' : Nat),
    CustomProcessor.putSnapshot s into d e k = some ((s', into'), k') → ∃ items, into' = into ++ items ∧ Conforms (u d) items

/-- `n'` is settled, and its schema is the one of `n`. -/
def Node.Same (u : Outside) (n n' : Node σ L) : Prop := n'.Settled u ∧ ∀ d, n'.slots u d = n.slots u d

def SameNodes (u : Outside) (ns ns' : List (Node σ L)) : Prop := SettledNodes u ns' ∧ ∀ d, nodeSlots u d ns' = nodeSlots u d ns

section
variable [DecidableEq L] [Custom σ L] [CustomProcessor σ] {u : Outside}

theorem MountHead.afterRun_config (h : MountHead) (o : Outcome) : M.Post (h.afterRun o) fun h' =>
    h'.name = h.name ∧ h'.descr = h.descr ∧ h'.maxInactivity = h.maxInactivity :=
  .ite (.bindAny fun _ => .pure ⟨rfl, rfl, rfl⟩) (.pure ⟨rfl, rfl, rfl⟩)

mutual
theorem Node.same_process (max : Nat) (s : Strategy) : ∀ n : Node σ L, n.Settled u →
    M.Post (n.process max s) fun r => Node.Same u n r.1
  | .processor p, hn => by
    rw [Node.process]
    refine .bind (fun r => r.1.receiver.chan.Expects (·.isSetting = false) ∧ r.1.state.bare = p.state.bare) ?_ fun r hr =>
      .pure ⟨(by simp only [Node.Settled]; exact hr.1), fun d => ?_⟩
    · intro e k r k' h
      exact Processor.settled h (by simpa only [Node.Settled] using hn)
    · simp only [Node.slots]
      rw [← ProcessorState.slots_bare, hr.2, ProcessorState.slots_bare]
  | .mount h ns ss, hn => by
    rw [Node.process]
    refine .bind _ (same_processNodes max s ns (by simpa only [Node.Settled] using hn)) fun r hr =>
      .bind _ (h.afterRun_config _) fun h' ⟨h1, h2, h3⟩ => .pure ⟨(by simp only [Node.Settled]; exact hr.1), fun d => ?_⟩
    have ha : ∀ c, h'.activity.slots c = h.activity.slots c := fun c => by simp [Activity.slots, MountHead.activity, h3]
    simp only [Node.slots, hr.2, h1, h2, ha]
  | .attached h ns ss [], hn => by
    rw [Node.process]
    simp only [Node.Settled] at hn
    refine .bind _ (same_processNodes max s ns hn.1) fun r hr =>
      .bind _ (h.afterRun_config _) fun h' ⟨h1, h2, h3⟩ => .pure ⟨(by simp only [Node.Settled]; exact ⟨hr.1, by simp⟩), fun d => ?_⟩
    have ha : ∀ c, h'.activity.slots c = h.activity.slots c := fun c => by simp [Activity.slots, MountHead.activity, h3]
    simp only [Node.slots, hr.2, h1, h2, ha]
  | .attached h ns ss (⟨ps, ss', closed⟩ :: inbox), hn => by
    rw [Node.process]
    simp only [Node.Settled] at hn
    obtain ⟨rfl, rfl⟩ := hn.2 _ (List.mem_cons_self ..)
    refine .bind _ (same_processNodes max s ns hn.1) fun r hr => .bind (fun r => r.1 = []) ?_ fun r' hr' =>
      .bind _ (h.afterRun_config _) fun h' ⟨h1, h2, h3⟩ => .pure ⟨?_, fun d => ?_⟩
    · rw [processNodes]; exact .pure rfl
    · simp only [Node.Settled, hr', List.append_nil]
      refine ⟨hr.1, fun a ha => ?_⟩
      split at ha
      · cases ha
      · exact hn.2 a (List.mem_cons_of_mem _ ha)
    · have ha : ∀ c, h'.activity.slots c = h.activity.slots c := fun c => by simp [Activity.slots, MountHead.activity, h3]
      simp only [Node.slots, hr.2, h1, h2, ha, hr', List.append_nil]
  | .driver as, hn => by rw [Node.process]; exact .pure ⟨hn, fun _ => rfl⟩
  | .custom s, hn => by
    rw [Node.process]
    exact .bindAny fun _ => .pure ⟨(by simp only [Node.Settled]), fun d => by simp only [Node.slots]⟩

theorem same_processNodes (max : Nat) (s : Strategy) : ∀ ns : List (Node σ L), SettledNodes u ns →
    M.Post (processNodes max s ns) fun r => SameNodes u ns r.1
  | [], hn => by rw [processNodes]; exact .pure ⟨hn, fun _ => rfl⟩
  | n :: ns, hn => by
    rw [processNodes]
    simp only [SettledNodes] at hn
    refine .bind _ (n.same_process max s hn.1) fun r hr => .bind _ (same_processNodes max s ns hn.2) fun r' hr' => .pure ⟨?_, fun d => ?_⟩
    · simp only [SettledNodes]; exact ⟨hr.1, hr'.1⟩
    · simp only [nodeSlots, hr.2, hr'.2]
end

omit [DecidableEq L] [Custom σ L] [CustomProcessor σ] in
theorem snapshooterSlots_same {ss ss' : List (Snapshooter σ L)} (h : bareSnapshooters ss' = bareSnapshooters ss) (v : Bool → List Slot)
    (d : Bool) : snapshooterSlots v d ss' = snapshooterSlots v d ss := by
  rw [← snapshooterSlots_bare, h, snapshooterSlots_bare]

omit [DecidableEq L] in
mutual
/-- What a node puts fits its schema, which stays the same. -/
theorem Node.same_put (hc : CustomFits σ L u.components) (hp : CustomProcessorFits σ u.processors) (d : Bool) :
    ∀ (n : Node σ L) (into : Snapshot), n.Settled u →
      M.Post (n.putSnapshot d into) fun r => Node.Same u n r.1 ∧ Grows (n.slots u d) into r.2
  | .processor p, into, hn => by
    rw [Node.putSnapshot]
    refine .bind (fun r => (r.1.receiver = p.receiver ∧ r.1.state.bare = p.state.bare) ∧ Grows (p.state.slots u.components d) into r.2)
      ?_ fun r hr => .pure ⟨⟨?_, fun d => ?_⟩, ?_⟩
    · refine .bind (fun r => r.1.bare = p.state.bare ∧ Grows (p.state.slots u.components d) into r.2) ?_ fun r hr =>
        .pure ⟨⟨rfl, hr.1⟩, hr.2⟩
      intro e k r k' h
      exact ⟨p.state.keepsBare_putSnapshot into d _ _ _ _ h, p.state.adds hc d into _ _ _ _ h⟩
    · simp only [Node.Settled] at hn ⊢; rw [hr.1.1]; exact hn
    · simp only [Node.slots]
      rw [← ProcessorState.slots_bare, hr.1.2, ProcessorState.slots_bare]
    · simp only [Node.slots]; exact hr.2
  | .mount h ns ss, into, hn => by
    rw [Node.putSnapshot]
    have hn' : SettledNodes u ns := by simpa only [Node.Settled] using hn
    refine .bind _ (h.activity.adds _) fun g hg => ?_
    cases hgo : g.1 with
    | false =>
      simp only [hgo, Bool.false_eq_true, if_false, Node.slots]
      exact .pure ⟨⟨hn, fun _ => rfl⟩, grows_inGroup ((grows_default _ _ _).trans (hg.1 hgo _))⟩
    | true =>
      simp only [hgo, if_true]
      refine .bind _ (same_putNodes hc hp d ns _ hn') fun r1 h1 => .bind (fun r => bareSnapshooters r.1 = bareSnapshooters ss ∧
        Grows (snapshooterSlots u.components d ss) r1.2 r.2) ?_ fun r2 h2 => .pure ⟨⟨?_, fun d => ?_⟩, ?_⟩
      · intro e k r k' h
        exact ⟨keepsBare_putSnapshooters d ss _ _ _ _ _ h, addsSnapshooters hc d ss _ _ _ _ _ h⟩
      · simp only [Node.Settled]; exact h1.1.1
      · simp only [Node.slots, h1.1.2, snapshooterSlots_same h2.1]
      · simp only [Node.slots]
        exact grows_inGroup ((grows_default _ _ _).trans (hg.2 hgo _ _ (h1.2.trans h2.2)))
  | .attached h ns ss inbox, into, hn => by
    rw [Node.putSnapshot]
    have hn' := hn
    simp only [Node.Settled] at hn'
    refine .bind _ (h.activity.adds _) fun g hg => ?_
    cases hgo : g.1 with
    | false =>
      simp only [hgo, Bool.false_eq_true, if_false, Node.slots]
      exact .pure ⟨⟨hn, fun _ => by simp only [Node.slots]⟩, grows_inGroup ((grows_default _ _ _).trans (hg.1 hgo _))⟩
    | true =>
      simp only [hgo, if_true]
      refine .bind _ (same_putNodes hc hp d ns _ hn'.1) fun r1 h1 => .bind (fun r => bareSnapshooters r.1 = bareSnapshooters ss ∧
        Grows (snapshooterSlots u.components d ss) r1.2 r.2) ?_ fun r2 h2 => .pure ⟨⟨?_, fun d => ?_⟩, ?_⟩
      · intro e k r k' h
        exact ⟨keepsBare_putSnapshooters d ss _ _ _ _ _ h, addsSnapshooters hc d ss _ _ _ _ _ h⟩
      · simp only [Node.Settled]; exact ⟨h1.1.1, hn'.2⟩
      · simp only [Node.slots, h1.1.2, snapshooterSlots_same h2.1]
      · simp only [Node.slots]
        exact grows_inGroup ((grows_default _ _ _).trans (hg.2 hgo _ _ (h1.2.trans h2.2)))
  | .driver as, into, hn => by
    rw [Node.putSnapshot]
    simp only [Node.Settled] at hn
    refine .pure ⟨⟨?_, fun d => by simp only [Node.slots]⟩, ?_⟩
    · simp only [Node.Settled, putAnswer]
      cases as with
      | nil => exact hn
      | cons a as =>
        dsimp only
        split <;> exact fun b hb => hn b (List.mem_cons_of_mem _ hb)
    · simp only [Node.slots, putAnswer]
      cases as with
      | nil => exact Grows.right .refl
      | cons a as =>
        dsimp only
        cases ha : a d with
        | none => exact Grows.right .refl
        | some s => exact Grows.left ⟨s, rfl, hn a (List.mem_cons_self ..) d s ha⟩
  | .custom s, into, hn => by
    rw [Node.putSnapshot]
    refine .bind (fun r => Grows (u.processors d) into r.2) (fun e k r k' h => hp s into d e k r.1 r.2 k' h) fun r hr => .pure ⟨⟨?_, fun d => ?_⟩, ?_⟩
    · simp only [Node.Settled]
    · simp only [Node.slots]
    · simp only [Node.slots]; exact hr

theorem same_putNodes (hc : CustomFits σ L u.components) (hp : CustomProcessorFits σ u.processors) (d : Bool) :
    ∀ (ns : List (Node σ L)) (into : Snapshot), SettledNodes u ns →
      M.Post (putNodes d ns into) fun r => SameNodes u ns r.1 ∧ Grows (nodeSlots u d ns) into r.2
  | [], into, hn => by rw [putNodes]; exact .pure ⟨⟨hn, fun _ => rfl⟩, .refl⟩
  | n :: ns, into, hn => by
    rw [putNodes]
    simp only [SettledNodes] at hn
    refine .bind _ (n.same_put hc hp d into hn.1) fun r hr => .bind _ (same_putNodes hc hp d ns _ hn.2) fun r' hr' => .pure ⟨⟨?_, fun d => ?_⟩, ?_⟩
    · simp only [SettledNodes]; exact ⟨hr.1.1, hr'.1.1⟩
    · simp only [nodeSlots, hr.1.2, hr'.1.2]
    · simp only [nodeSlots]; exact hr.2.trans hr'.2
end

end

/-! ## The metrics of a driver -/

theorem Meter.slots_bare (m : Meter) (d : Bool) : m.bare.slots d = m.slots d := rfl

theorem Histogram.slots_bare (h : Histogram) (d : Bool) : h.bare.slots d = h.slots d := rfl

theorem Meter.same_update (m : Meter) (u : Update) : M.Post (m.update u) fun r => ∀ d, r.1.slots d = m.slots d :=
  (m.keepsBare_update u).mono fun r h d => by rw [← Meter.slots_bare, h, Meter.slots_bare]

theorem Histogram.same_update (h : Histogram) (u : Update) : M.Post (h.update u) fun r => ∀ d, r.1.slots d = h.slots d :=
  (h.keepsBare_update u).mono fun r hr d => by rw [← Histogram.slots_bare, hr, Histogram.slots_bare]

theorem Gauge.same_update (g : Gauge) (u : Update) : M.Post (g.update u) fun r => ∀ d, r.1.slots d = g.slots d :=
  (g.keepsBare_update u).mono fun r h d => by rw [← Gauge.slots_bare, h, Gauge.slots_bare]

theorem Meter.same_put (m : Meter) (into : Snapshot) (d : Bool) :
    M.Post (m.putSnapshot into d) fun r => (∀ d, r.1.slots d = m.slots d) ∧ Grows (m.slots d) into r.2 := fun e k r k' h =>
  ⟨fun d' => by rw [← Meter.slots_bare, m.keepsBare_putSnapshot into d _ _ _ _ h, Meter.slots_bare], m.adds into d _ _ _ _ h⟩

theorem Gauge.same_put (g : Gauge) (into : Snapshot) (d : Bool) :
    M.Post (g.putSnapshot into d) fun r => (∀ d, r.1.slots d = g.slots d) ∧ Grows (g.slots d) into r.2 := fun e k r k' h =>
  ⟨fun d' => by rw [← Gauge.slots_bare, g.keepsBare_putSnapshot into d _ _ _ _ h, Gauge.slots_bare], g.adds into d _ _ _ _ h⟩

/-- The schema of the metrics. -/
def DriverInstruments.slots (i : DriverInstruments) (d : Bool) : List Slot :=
  i.collectionsPerSecond.slots d ++ i.collectionTimes.slots d ++ i.processedPerSecond.slots d ++
    i.processedPerCollection.slots d ++ i.droppedPerSecond.slots d ++ i.droppedPerCollection.slots d ++ i.enqueued.slots d ++
    i.updatedPerSecond.slots d ++ i.snapshotsPerSecond.slots d ++ i.snapshotTimes.slots d ++ i.droppedAlarm.slots d ++
    i.inactivityAlarm.slots d ++ i.ratio.slots d ++ i.ratioHisto.slots d

namespace DriverInstruments

theorem same_putSnapshot (i : DriverInstruments) (into : Snapshot) (d : Bool) : M.Post (i.putSnapshot into d) fun r =>
    (∀ d, r.1.slots d = i.slots d) ∧ Grows [.group "_metrix" (i.slots d)] into r.2 := by
  unfold putSnapshot
  refine .bind _ (i.collectionsPerSecond.same_put _ d) fun r1 h1 => ?_
  refine .bind _ (i.collectionTimes.adds _ d) fun r2 h2 => ?_
  refine .bind _ (i.processedPerSecond.same_put _ d) fun r3 h3 => ?_
  refine .bind _ (i.processedPerCollection.adds _ d) fun r4 h4 => ?_
  refine .bind _ (i.droppedPerSecond.same_put _ d) fun r5 h5 => ?_
  refine .bind _ (i.droppedPerCollection.adds _ d) fun r6 h6 => ?_
  refine .bind _ (i.enqueued.same_put _ d) fun r7 h7 => ?_
  refine .bind _ (i.updatedPerSecond.same_put _ d) fun r8 h8 => ?_
  refine .bind _ (i.snapshotsPerSecond.same_put _ d) fun r9 h9 => ?_
  refine .bind _ (i.snapshotTimes.adds _ d) fun r10 h10 => ?_
  refine .bind _ (adds_putTimedSwitch _ _ _ _ _ d) fun r11 h11 => ?_
  refine .bind _ (adds_putTimedSwitch _ _ _ _ _ d) fun r12 h12 => ?_
  refine .bind _ (i.ratio.same_put _ d) fun r13 h13 => ?_
  refine .bind _ (i.ratioHisto.adds _ d) fun r14 h14 => .pure ⟨fun d => ?_, .push (.group ?_)⟩
  · simp only [slots, h1.1, h3.1, h5.1, h7.1, h8.1, h9.1, h13.1]
  · exact (((((((((((((h1.2.trans h2).trans h3.2).trans h4).trans h5.2).trans h6).trans h7.2).trans h8.2).trans h9.2).trans
      h10).trans h11).trans h12).trans h13.2).trans h14).empty

/-- The updated metrics have the same schema. -/
abbrev SameSlots (i : DriverInstruments) (x : M DriverInstruments) : Prop := x.Post fun i' => ∀ d, i'.slots d = i.slots d

variable (i : DriverInstruments) (now started : Int)

theorem same_notePass : SameSlots i (i.notePass now started) := by
  refine .bind _ (i.collectionsPerSecond.same_update _) fun r1 h1 => .bindAny fun _ =>
    .bind _ (i.collectionTimes.same_update _) fun r2 h2 => .pure fun d => ?_
  simp only [slots, h1, h2]

theorem same_noteProcessed (n : Nat) : SameSlots i (i.noteProcessed now n) := by
  refine .ite (.bind _ (i.processedPerSecond.same_update _) fun r1 h1 =>
    .bind _ (i.processedPerCollection.same_update _) fun r2 h2 => .pure fun d => ?_) (.pure fun _ => rfl)
  simp only [slots, h1, h2]

theorem same_noteEnqueued (n : Nat) : SameSlots i (i.noteEnqueued now n) := by
  refine .bind _ (i.enqueued.same_update _) fun r1 h1 => .pure fun d => ?_
  simp only [slots, h1]

theorem same_noteDropped (n : Nat) : SameSlots i (i.noteDropped now n) := by
  refine .ite (.bind _ (i.droppedPerSecond.same_update _) fun r1 h1 =>
    .bind _ (i.droppedPerCollection.same_update _) fun r2 h2 => .bind _ (i.droppedAlarm.keepsBare_update _) fun r3 h3 =>
    .pure fun d => ?_) (.pure fun _ => rfl)
  have : r3.1.slots d = i.droppedAlarm.slots d := (congrArg (fun t : StaircaseTimer => t.slots d) h3 :)
  simp only [slots, h1, h2, this]

theorem same_noteUpdated (n : Nat) : SameSlots i (i.noteUpdated now n) := by
  refine .ite (.bind _ (i.updatedPerSecond.same_update _) fun r1 h1 => .pure fun d => ?_) (.pure fun _ => rfl)
  simp only [slots, h1]

theorem same_noteActivity : SameSlots i (i.noteActivity now) := by
  refine .bind _ (i.inactivityAlarm.keepsBare_update _) fun r1 h1 => .pure fun d => ?_
  have : r1.1.slots d = i.inactivityAlarm.slots d := (congrArg (fun t : NonOccurrenceIndicator => t.slots d) h1 :)
  simp only [slots, this]

theorem same_postCollection (o : Outcome) : SameSlots i (i.updatePostCollection o started) := by
  refine .bindAny fun now => .bind _ (i.same_notePass _ _) fun i1 h1 => .bind _ (i1.same_noteProcessed _ _) fun i2 h2 =>
    .bind _ (i2.same_noteEnqueued _ _) fun i3 h3 => .bind _ (i3.same_noteDropped _ _) fun i4 h4 =>
    .bind _ (i4.same_noteUpdated _ _) fun i5 h5 => (i5.same_noteActivity _).mono fun i6 h6 d => ?_
  rw [h6, h5, h4, h3, h2, h1]

theorem same_postSnapshot : SameSlots i (i.updatePostSnapshot started) := by
  refine .bindAny fun _ => .bind _ (i.snapshotsPerSecond.same_update _) fun r1 h1 => .bindAny fun _ =>
    .bind _ (i.snapshotTimes.same_update _) fun r2 h2 => .pure fun d => ?_
  simp only [slots, h1, h2]

theorem same_runRatio (q : Rat) : SameSlots i (i.updateRunRatio q) := by
  refine .bindAny fun _ => .bindAny fun _ => .bind _ (i.ratioHisto.same_update _) fun r1 h1 =>
    .bind _ (i.ratio.same_update _) fun r2 h2 => .pure fun d => ?_
  simp only [slots, h1, h2]

end DriverInstruments

theorem Meter.slots_new (n : String) : M.Post (Meter.new n) fun m => ∀ d, m.slots d = [meterOf n] :=
  .bindAny fun _ => .bindAny fun _ => .pure fun d => by cases d <;> rfl

theorem Histogram.slots_new (n : String) : M.Post (Histogram.new n) fun m => ∀ d, m.slots d = [histogramOf n] :=
  .bindAny fun _ => .pure fun d => by cases d <;> rfl

theorem Gauge.slots_new (n : String) : M.Post (({ name := n } : Gauge).setTracking 60) fun g =>
    ∀ d, { g with groupValues := true }.slots d = [gaugeOf n] := by
  intro e k g k' h
  obtain ⟨-, b, rfl⟩ := setTracking_eq_some h
  intro d
  cases d <;> rfl

theorem DriverInstruments.slots_new : M.Post DriverInstruments.new fun i => ∀ d, [.group "_metrix" (i.slots d)] = metricsSlots := by
  unfold DriverInstruments.new
  refine .bind _ (Meter.slots_new _) fun r1 h1 => ?_
  refine .bind _ (Histogram.slots_new _) fun r2 h2 => ?_
  refine .bind _ (Meter.slots_new _) fun r3 h3 => ?_
  refine .bind _ (Histogram.slots_new _) fun r4 h4 => ?_
  refine .bind _ (Meter.slots_new _) fun r5 h5 => ?_
  refine .bind _ (Histogram.slots_new _) fun r6 h6 => ?_
  refine .bind _ (Gauge.slots_new _) fun r7 h7 => ?_
  refine .bind _ (Meter.slots_new _) fun r8 h8 => ?_
  refine .bind _ (Meter.slots_new _) fun r9 h9 => ?_
  refine .bind _ (Histogram.slots_new _) fun r10 h10 => ?_
  refine .bind (fun t => ∀ d, t.slots d = [.value "inactivity_alarm" [.boolean]])
    (.bindAny fun _ => .pure fun d => by cases d <;> rfl) fun r11 h11 => ?_
  refine .bind _ (Histogram.slots_new _) fun r12 h12 => ?_
  refine .bind _ (Gauge.slots_new _) fun r13 h13 => .pure fun d => ?_
  have h14 : ({ name := "dropped_observations_alarm" } : StaircaseTimer).slots d = [.value "dropped_observations_alarm" [.boolean]] := by
    cases d <;> rfl
  simp only [slots, h1, h2, h3, h4, h5, h6, h7, h8, h9, h10, h11, h12, h13, h14, metricsSlots, List.append_assoc, List.cons_append,
    List.nil_append]

/-! ## Drivers -/

section
variable [DecidableEq L] [Custom σ L] [CustomProcessor σ] {u : Outside} {e : Env} {k k' : Nat}

/-- The metrics, if there are any, have the schema of the driver's metrics. -/
def LoopState.Metered (l : LoopState σ L) : Prop := ∀ i, l.metrics = some i → ∀ d, [.group "_metrix" (i.slots d)] = metricsSlots

omit [DecidableEq L] in
theorem LoopState.metered_begin {l l' : LoopState σ L} {m : Option (DriverMsg σ L)} {started : Int} {answer : Option Snapshot}
    (hl : l.Metered) (h : l.begin m e k = some ((l', started, answer), k')) : l'.Metered := by
  rcases (begin_spec h).2 with ⟨_, rfl, _⟩ | ⟨m', rfl, hh⟩
  · exact hl
  · cases m' with
    | getSnapshot id d =>
      simp only [LoopState.handle, M.bind_eq_some, M.run_pure, Option.some.injEq, Prod.mk.injEq] at hh
      obtain ⟨⟨l₁, s₁⟩, k₄, hh, ⟨rfl, _⟩, _⟩ := hh
      obtain ⟨level, hv, rfl⟩ := makeSnapshot_spec hh
      obtain ⟨ps, ss, items₁, items₂, k₅, k₆, metrics, entry, _, _, _, _, _, rfl, hmet⟩ := addSnapshotValues_spec hv
      intro i hi
      dsimp only at hi
      cases hlm : l.metrics with
      | none => simp only [hlm] at hmet; rw [hmet.1] at hi; cases hi
      | some i₀ =>
        simp only [hlm] at hmet
        obtain ⟨i₁, i₂, k₇, h1, h2, rfl⟩ := hmet
        cases hi
        intro d'
        rw [(i₁.same_putSnapshot _ _ _ _ _ _ h2).1, i₀.same_postSnapshot _ _ _ _ _ h1]
        exact hl i₀ hlm d'
    | _ =>
      simp only [LoopState.handle, M.run_pure, Option.some.injEq, Prod.mk.injEq] at hh
      obtain ⟨⟨rfl, _⟩, _⟩ := hh
      exact hl

theorem LoopState.metered_work {l l' : LoopState σ L} {started : Int} {outcome : Option Outcome} {rest : Option Nap}
    (hl : l.Metered) (h : l.work started e k = some ((l', outcome, rest), k')) : l'.Metered := by
  have hnote : ∀ (l : LoopState σ L) (o : Outcome) (s : Int), l.Metered → M.Post (l.noteRun o s) LoopState.Metered := by
    intro l o s hl
    unfold LoopState.noteRun
    cases hm : l.metrics with
    | none => exact .pure hl
    | some i =>
      exact .bind _ (i.same_postCollection _ _) fun i' hi => .pure fun j hj d => by cases hj; rw [hi]; exact hl i hm d
  have helapsed : ∀ (l : LoopState σ L) (s : Int) (r : Nat), l.Metered → M.Post (l.reportElapsed s r) LoopState.Metered := by
    intro l s r hl
    unfold LoopState.reportElapsed
    cases hm : l.metrics with
    | none => exact .pure hl
    | some i =>
      exact .bindAny fun _ => .bindAny fun _ => .bindAny fun _ => .ite (.bindAny fun _ =>
        .bind _ (i.same_runRatio _) fun i' hi => .pure fun j hj d => by cases hj; rw [hi]; exact hl i hm d) (.pure hl)
  rcases work_spec h with ⟨_, _, rfl, _⟩ | ⟨h1, o, ps, k₁, t, c, w, l₁, k₂, k₃, h2, h3, h4, _, l₂, h5, h6⟩
  · exact hl
  · have hl₁ : l₁.Metered := by subst h4; exact hl
    have hl₂ := hnote l₁ _ _ hl₁ _ _ _ _ h5
    rcases h6 with ⟨rfl, _⟩ | ⟨runTime, h6⟩
    · exact hl₂
    · exact helapsed l₂ _ _ hl₂ _ _ _ _ h6

theorem LoopState.metered_new (name : Option String) (descr : Descr) (strategy : Strategy) (withMetrics : Bool) :
    M.Post (LoopState.new name descr strategy withMetrics) (LoopState.Metered (σ := σ) (L := L)) := by
  intro e k l k' h
  unfold LoopState.new at h
  cases withMetrics with
  | true =>
    simp only [if_true, M.bind_eq_some, M.map_eq_some, M.run_now, M.run_pure, Option.some.injEq, Prod.mk.injEq] at h
    obtain ⟨_, _, ⟨i, hi, rfl⟩, _, _, _, _, _, _, rfl, _⟩ := h
    intro j hj
    cases hj
    exact DriverInstruments.slots_new _ _ _ _ hi
  | false =>
    simp only [Bool.false_eq_true, if_false, M.bind_eq_some, M.run_now, M.run_pure, Option.some.injEq, Prod.mk.injEq] at h
    obtain ⟨_, _, ⟨rfl, rfl⟩, _, _, _, _, _, _, rfl, _⟩ := h
    intro j hj
    cases hj

/-- An iteration of a driver began with a state as the messages say, and with metrics of the usual schema. -/
theorem DriverLife.metered {name : Option String} {descr : Descr} {strategy : Strategy} {wm : Bool}
    {t t' : DriverThread σ L} {log before after : List (Iteration σ L)} {i : Iteration σ L}
    (h : DriverLife e k t log k' t') {ms : List (DriverMsg σ L)}
    (ht : ∀ l, t = .running l → FromMessages e name descr strategy wm ms l.state ∧ l.state.Metered)
    (hlog : log = before ++ i :: after) :
    ∃ (l : Loop σ L) (k₁ k₂ : Nat) (t₁ : DriverThread σ L), (DriverThread.running l).iterate e k₁ = (t₁, some i, k₂) ∧
      FromMessages e name descr strategy wm (ms ++ handled before) l.state ∧ l.state.Metered := by
  induction h generalizing ms before with
  | nil => simp at hlog
  | @iteration k k₁ k₂ k' t t₁ t' j log hk hi hl ih =>
    cases t with
    | ended c => have := (iterate_ended hi).2.1; simp at this
    | running l =>
      have hl0 := ht l rfl
      cases before with
      | nil =>
        simp only [List.nil_append, List.cons.injEq] at hlog
        obtain ⟨rfl, rfl⟩ := hlog
        exact ⟨l, k₁, k₂, t₁, hi, by simpa [handled] using hl0⟩
      | cons b before =>
        simp only [List.cons_append, List.cons.injEq] at hlog
        obtain ⟨rfl, rfl⟩ := hlog
        have hh : ms ++ handled (j :: before) = (ms ++ j.message.toList) ++ handled before := by
          cases hm : j.message <;> simp [handled, hm]
        rw [hh]
        refine ih ?_ rfl
        intro l' hl'
        cases iterates hi with
        | panicEarly hp hb => cases hl'
        | panicLate hp hb hw => cases hl'
        | done hp hb hw =>
          cases hl'
          exact ⟨work_fromMessages (begin_fromMessages hl0.1 hb) hw, LoopState.metered_work (LoopState.metered_begin hl0.2 hb) hw⟩
  | @over k k₁ k₂ k' t t₁ t' log hk hi hl ih =>
    cases t with
    | ended c =>
      obtain ⟨rfl, -, rfl⟩ := iterate_ended hi
      obtain ⟨h1, _⟩ := hl.ended rfl
      rw [h1] at hlog; simp at hlog
    | running l =>
      cases iterates hi with
      | stop hp =>
        obtain ⟨h1, _⟩ := hl.ended rfl
        rw [h1] at hlog; simp at hlog
  | others hl ih =>
    obtain ⟨h1, _⟩ := hl.ended rfl
    rw [h1] at hlog; simp at hlog

theorem Node.Became.same (hc : CustomFits σ L u.components) (hp : CustomProcessorFits σ u.processors) {n n' : Node σ L}
    (h : n.Became e n') (hn : n.Settled u) : Node.Same u n n' := by
  induction h with
  | refl => exact ⟨hn, fun _ => rfl⟩
  | run _ hr ih =>
    have := Node.same_process _ _ _ ih.1 _ _ _ _ hr
    exact ⟨this.1, fun d => (this.2 d).trans (ih.2 d)⟩
  | snapshot _ hr ih =>
    have := (Node.same_put hc hp _ _ _ ih.1 _ _ _ _ hr).1
    exact ⟨this.1, fun d => (this.2 d).trans (ih.2 d)⟩

theorem becameNodes_same (hc : CustomFits σ L u.components) (hp : CustomProcessorFits σ u.processors) {ns ns' : List (Node σ L)}
    (h : List.Forall₂ (Node.Became e) ns ns') (hn : ∀ n ∈ ns, n.Settled u) : SameNodes u ns ns' := by
  induction h with
  | nil => exact ⟨trivial, fun _ => rfl⟩
  | cons h1 _ ih =>
    have h2 := h1.same hc hp (hn _ (List.mem_cons_self ..))
    have h3 := ih fun n hn' => hn n (List.mem_cons_of_mem _ hn')
    exact ⟨⟨h2.1, h3.1⟩, fun d => by simp only [nodeSlots, h2.2, h3.2]⟩

omit [DecidableEq L] [CustomProcessor σ] in
theorem Snapshooter.Became.bare {x x' : Snapshooter σ L} (h : x.Became e x') : x'.bare = x.bare := by
  induction h with
  | refl => rfl
  | snapshot _ hr ih => exact (Snapshooter.keepsBare_putSnapshot _ _ _ _ _ _ _ hr).trans ih

omit [DecidableEq L] [CustomProcessor σ] in
theorem becameSnapshooters_bare {ss ss' : List (Snapshooter σ L)} (h : List.Forall₂ (Snapshooter.Became e) ss ss') :
    bareSnapshooters ss' = bareSnapshooters ss := by
  induction h with
  | nil => rfl
  | cons h1 _ ih => simp only [bareSnapshooters, h1.bare, ih]

/-- All answers of a driver fit the schema given by its settings and by the processors and snapshooters that were added to
it before, provided that these are not reconfigured. -/
theorem C70_driver (hc : CustomFits σ L u.components) (hp : CustomProcessorFits σ u.processors)
    {name : Option String} {descr : Descr} {strategy : Strategy} {withMetrics : Bool}
    {programs : List (SendThread (DriverMsg σ L))} {t t' : DriverThread σ L} {log before after : List (Iteration σ L)}
    {i : Iteration σ L} (hnew : NewDriver e k name descr strategy withMetrics programs t) (h : DriverLife e k t log k' t')
    (hlog : log = before ++ i :: after) (hsettled : ∀ n ∈ addedProcessors (handled before), n.Settled u)
    {id : Nat} {d : Bool} (hm : i.message = some (.getSnapshot id d)) {s : Snapshot} (hs : i.answer = some s) :
    Conforms (driverSlots u d name descr (addedProcessors (handled before)) (addedSnapshooters (handled before)) withMetrics) s := by
  obtain ⟨l₀, rfl, hchan, h0⟩ := hnew.fromMessages
  have hm0 : l₀.state.Metered := by
    obtain ⟨k₀, state, ahead, blind, hn, hl⟩ := hnew.created
    cases hl
    exact LoopState.metered_new _ _ _ _ _ _ _ _ hn
  obtain ⟨l, k₁, k₂, t₁, hi, hl, hmet⟩ := h.metered (ms := []) (fun l hl => by cases hl; exact ⟨h0, hm0⟩) hlog
  rw [List.nil_append] at hl
  have key : ∃ (m : Option (DriverMsg σ L)) (l' : LoopState σ L) (started : Int) (answer : Option Snapshot) (k₃ : Nat),
      l.state.begin m e k₁ = some ((l', started, answer), k₃) ∧ i.message = m ∧ i.answer = answer := by
    cases iterates hi with
    | panicEarly hp hb => cases hs
    | panicLate hp hb hw => exact ⟨_, _, _, _, _, hb, rfl, rfl⟩
    | done hp hb hw => exact ⟨_, _, _, _, _, hb, rfl, rfl⟩
  obtain ⟨m, l', started, answer, k₃, hb, rfl, rfl⟩ := key
  rcases (begin_spec hb).2 with ⟨h1, _⟩ | ⟨m', h1, hh⟩
  · rw [hm] at h1; cases h1
  rw [hm] at h1; cases h1
  simp only [LoopState.handle, M.bind_eq_some, M.run_pure, Option.some.injEq, Prod.mk.injEq] at hh
  obtain ⟨⟨l₁, s₁⟩, k₄, hh, ⟨rfl, hs'⟩, rfl⟩ := hh
  rw [hs] at hs'; cases hs'
  obtain ⟨level, hv, rfl⟩ := makeSnapshot_spec hh
  have hsame := becameNodes_same hc hp hl.processors hsettled
  have hbare := becameSnapshooters_bare hl.snapshooters
  suffices Conforms (descr.slots d ++ nodeSlots u d (addedProcessors (handled before)) ++
      snapshooterSlots u.components d (addedSnapshooters (handled before)) ++ if withMetrics then metricsSlots else []) level by
    rw [hl.name]
    unfold driverSlots
    cases name with
    | none => exact this
    | some n => exact .one (.group this)
  unfold LoopState.addSnapshotValues at hv
  simp only [M.bind_eq_some] at hv
  obtain ⟨⟨ps, items₁⟩, k₅, h1, ⟨ss, items₂⟩, k₆, h2, h3⟩ := hv
  have g1 := (same_putNodes hc hp d _ _ hsame.1 _ _ _ _ h1).2
  have g2 := addsSnapshooters hc d _ _ _ _ _ _ h2
  rw [hsame.2] at g1
  rw [snapshooterSlots_same hbare] at g2
  have g0 := grows_default l.state.descr [] d
  rw [hl.descr] at g0 g1
  have g := (g0.trans g1).trans g2
  have hwm := hl.metrics
  cases hlm : l.state.metrics with
  | none =>
    simp only [hlm, M.run_pure, Option.some.injEq, Prod.mk.injEq] at h3
    obtain ⟨⟨_, rfl⟩, _⟩ := h3
    rw [hlm] at hwm
    subst hwm
    simpa using g.empty
  | some i₀ =>
    simp only [hlm, M.bind_eq_some, M.run_pure, Option.some.injEq, Prod.mk.injEq] at h3
    obtain ⟨i₁, k₇, h4, ⟨i₂, s'⟩, k₈, h5, ⟨_, rfl⟩, _⟩ := h3
    rw [hlm] at hwm
    subst hwm
    have g3 := (i₁.same_putSnapshot _ _ _ _ _ _ h5).2
    rw [i₀.same_postSnapshot _ _ _ _ _ h4, hmet i₀ hlm d] at g3
    exact (g.trans g3).empty
end

/-! ## What fits a schema -/

/-- The keys are those of the schema, in the order of the schema; some may be missing, none occurs more often than there.
Each item is as one of the slots says: the value is of one of the kinds given there, and a group is as the slots in there say. -/
theorem C70_keys {slots : List Slot} {s : Snapshot} (h : Conforms slots s) :
    (s.map (·.1)).Sublist (namesIn slots) ∧ s.length ≤ width slots ∧
      ∀ item ∈ s, ∃ x ∈ flatSlots slots, x.Admits item.1 item.2 := h.named

/-! ## Examples -/

/-- There are no user defined components. -/
def nothingOutside : Outside := ⟨fun _ => [], fun _ => [], fun _ => []⟩

theorem emptyFits : CustomFits Empty Nat fun _ => [] := fun s => s.elim

theorem emptyProcessorFits : CustomProcessorFits Empty fun _ => [] := fun s => s.elim

/-- Only observations are sent to the processor of C05. -/
theorem exampleProcessor_settled : (Node.processor exampleProcessor).Settled nothingOutside := by
  simp only [Node.Settled, exampleProcessor, Channel.Expects, Channel.fresh, exampleMessages, List.not_mem_nil, false_implies, implies_true,
    List.mem_cons, or_false, true_and]
  rintro th rfl
  simp [Message.isSetting]

/-- A driver with the processor of C05 shows two counters, then, as soon as there is a value, a gauge, and then the metrics. -/
example : driverSlots nothingOutside true (some "d") {} [.processor exampleProcessor] [] true =
    [.group "d" ([.value "c" [.uint], .value "d" [.uint], .maybe [.value "g" [.int]]] ++ metricsSlots)] := rfl

theorem measured_added : addedProcessors (handled (measuredLog.take 2)) = [.processor exampleProcessor] ∧
    addedSnapshooters (handled (measuredLog.take 2)) = [] := by
  have hlen : (addedProcessors (handled (measuredLog.take 2))).length = 1 ∧ (addedSnapshooters (handled (measuredLog.take 2))).length = 0 := by
    decide +kernel
  refine ⟨?_, List.eq_nil_of_length_eq_zero hlen.2⟩
  obtain ⟨n, hn⟩ := List.length_eq_one_iff.mp hlen.1
  rw [hn]
  have hmem : n ∈ addedProcessors (handled (measuredLog.take 2)) := by rw [hn]; simp
  simp only [addedProcessors, List.mem_filterMap] at hmem
  obtain ⟨m, hm, hmn⟩ := hmem
  have hm' : m ∈ handled measuredLog := by
    simp only [handled, List.mem_filterMap] at hm ⊢
    obtain ⟨i, hi, him⟩ := hm
    exact ⟨i, List.mem_of_mem_take hi, him⟩
  obtain ⟨sources, h1, h2, -⟩ := C52_order measuredDriver_new (.ofIterations 3 measuredDriver ticking _)
  rw [show (measuredDriver.iterations 3 ticking measuredState.2).1 = measuredLog from rfl] at h1
  rw [← h1] at hm'
  obtain ⟨⟨u, m'⟩, hx, rfl⟩ := List.mem_map.mp hm'
  have hp : m' ∈ programOf driverPrograms u := by
    refine (h2 u).subset ?_
    exact List.mem_map.mpr ⟨_, List.mem_filter.mpr ⟨hx, by simp⟩, rfl⟩
  match u with
  | 0 =>
    simp only [programOf, driverPrograms, List.getElem?_cons_zero, List.mem_singleton] at hp
    subst hp
    simp only [Option.some.injEq] at hmn
    rw [hmn]
  | 1 =>
    simp [programOf, driverPrograms] at hp
    rcases hp with rfl | rfl <;> simp at hmn
  | u + 2 => simp [programOf, driverPrograms] at hp

/-- The second snapshot of the driver of C55. -/
example : ∃ s, (measuredLog[2]?.bind (·.answer)) = some s ∧
    Conforms [.group "d" ([.value "c" [.uint], .value "d" [.uint], .maybe [.value "g" [.int]]] ++ metricsSlots)] s := by
  obtain ⟨h1, h2, h3, h4⟩ := measuredLog_runs
  have hlife : DriverLife ticking measuredState.2 measuredDriver measuredLog _ _ := .ofIterations 3 measuredDriver ticking _
  have hi : measuredLog[2]? = some (measuredLog[2]'(by omega)) := List.getElem?_eq_getElem _
  generalize hx : measuredLog[2]'(by omega) = i at hi
  have hsplit : measuredLog = measuredLog.take 2 ++ i :: measuredLog.drop 3 := by
    rw [← hx]; simp
  rw [hi] at h3 h4
  obtain ⟨s, hs⟩ := Option.isSome_iff_exists.mp h4
  simp only [Option.bind_some] at hs h3
  obtain ⟨m, hm, hreq⟩ := Option.map_eq_some_iff.mp h3
  cases m with
  | getSnapshot id d =>
    refine ⟨s, by rw [hi]; exact hs, ?_⟩
    have := C70_driver (u := nothingOutside) emptyFits emptyProcessorFits measuredDriver_new hlife hsplit (by
      rw [measured_added.1]; simpa using exampleProcessor_settled) hm hs
    rw [measured_added.1, measured_added.2] at this
    cases d <;> exact this
  | _ => simp [requests] at hreq

/-- A display that shows "?" in the beginning. -/
example : ∃ log k' t', History ticking 1 { name := "t", value := some (.text "?"), resetValue := some (.text "?") : DataDisplay } log k' t' ∧
    log.map (·.out) = [.snapshot [("t", .text "?")], .updated 1, .snapshot [("t", .uint 3)]] :=
  ⟨[_, _, _], _, _, .cons (k₁ := 1) (by decide) (op := .snapshot [] true) rfl
    (.cons (k₁ := 2) (by decide) (op := .input (.withValue (.unsignedInteger 3) 0)) rfl
    (.cons (k₁ := 3) (by decide) (op := .snapshot [] true) rfl (.nil (Nat.le_refl _)))), rfl⟩

/-- A tracker that shows a zero as long as nothing happened: the kind of the value changes with the first occurrence. -/
example : ∃ log k' t', History ticking 1 { name := "t", makeNoneZero := true : LastOccurrenceTracker } log k' t' ∧
    log.map (·.out) = [.snapshot [("t", .int 0)], .updated 1, .snapshot [("t", .uint 0)]] :=
  ⟨[_, _, _], _, _, .cons (k₁ := 1) (by decide) (op := .snapshot [] true) rfl
    (.cons (k₁ := 2) (by decide) (op := .input (.observation 1400000000)) rfl
    (.cons (k₁ := 3) (by decide) (op := .snapshot [] true) rfl (.nil (Nat.le_refl _)))), rfl⟩

end Metrix
