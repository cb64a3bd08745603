import Verif.Proof.Relabel
import Verif.Props.C85

/-!
# C86: labels matter only to filters, to modifiers of updates and to the user's own handlers

Two programs that differ in their labels only (`Spec.Relabel`) report the same outcomes and show the same snapshots.
-/

namespace Metrix
variable {σ L L' : Type} [DecidableEq L] [DecidableEq L'] [Custom σ L] [Custom σ L'] [CustomProcessor σ] {f : L → L'}

theorem Same.eq {A B X Y : Type} {R : A → B → Prop} {x : M (A × X)} {y : M (B × X)} (h : Same R x y)
    {u : A × X → M Y} {v : B × X → M Y} (huv : ∀ a b n, R a b → u (a, n) = v (b, n)) : (x >>= u) = (y >>= v) := by
  funext e k
  have := h e k
  cases hx : x e k with
  | none =>
    rw [hx] at this
    cases hy : y e k with
    | none => rw [M.run_bind_none hx, M.run_bind_none hy]
    | some b => rw [hy] at this; cases this
  | some a =>
    rw [hx] at this
    cases hy : y e k with
    | none => rw [hy] at this; cases this
    | some b =>
      rw [hy] at this
      cases this with
      | some h =>
        obtain ⟨⟨a, n⟩, ka⟩ := a
        obtain ⟨⟨b, m⟩, kb⟩ := b
        obtain ⟨rfl, rfl, h⟩ := h
        rw [M.run_bind_some hx, M.run_bind_some hy]
        exact congrFun (congrFun (huv a b n h) e) ka

/-- Processors, mounts and attached mounts that differ in their labels only: whatever is done with them, they return the
same outcomes and snapshots. If one panics, so does the other. -/
theorem C86_results (hc : CustomLike σ f) {n : Node σ L} {n' : Node σ L'} (h : n.Like f n') (cs : List NodeCall) :
    n'.results cs = n.results cs := by
  induction cs generalizing n n' with
  | nil => rfl
  | cons c cs ih =>
    cases c with
    | process max strategy =>
      exact (Same.eq (h.process hc max strategy) fun a b o hab => by simp only [ih hab]).symm
    | snapshot into d =>
      exact (Same.eq (h.put hc d into) fun a b o hab => by simp only [ih hab]).symm

omit [Custom σ L] [Custom σ L'] [CustomProcessor σ] in
theorem Iteration.Like.report {a : Iteration σ L} {b : Iteration σ L'} (h : a.Like f b) : b.report = a.report := by
  obtain ⟨m, an, o, r⟩ := a
  obtain ⟨m', an', o', r'⟩ := b
  obtain ⟨h1, h2, h3, h4⟩ := h
  simp only at h1 h2 h3 h4
  subst h2 h3 h4
  cases h1 with
  | none => rfl
  | some h1 => cases h1 <;> cases an <;> rfl

/-- Drivers that differ in their labels only: in any number of iterations they give the same answers to the same requests,
report the same outcomes, sleep equally long and read the clock equally often. -/
theorem C86_driver (hc : CustomLike σ f) {t : DriverThread σ L} {t' : DriverThread σ L'} (h : t.Like f t') (n : Nat) (e : Env) (k : Nat) :
    (t'.iterations n e k).1.map Iteration.report = (t.iterations n e k).1.map Iteration.report ∧
      (t'.iterations n e k).2.1 = (t.iterations n e k).2.1 ∧ (t.iterations n e k).2.2.Like f (t'.iterations n e k).2.2 := by
  induction n generalizing t t' k with
  | zero => exact ⟨rfl, rfl, h⟩
  | succ n ih =>
    obtain ⟨h1, h2, h3⟩ := h.iterate hc e k
    unfold DriverThread.iterations
    generalize t.iterate e k = x at h1 h2 h3 ⊢
    generalize t'.iterate e k = y at h1 h2 h3 ⊢
    obtain ⟨t₁, i, k₁⟩ := x
    obtain ⟨t₁', i', k₁'⟩ := y
    simp only at h1 h2 h3 ⊢
    subst h3
    obtain ⟨h4, h5, h6⟩ := ih h1 k₁
    refine ⟨?_, h5, h6⟩
    simp only [List.map_append, h4]
    congr 1
    cases h2 with
    | none => rfl
    | some h2 => simp only [Option.toList_some, List.map_cons, List.map_nil, h2.report]

/-! ## Renaming -/

section Rename
variable {g : L' → L} (hg : ∀ l, g (f l) = l)
include hg
omit [Custom σ L] [Custom σ L'] [CustomProcessor σ]

/-- If `f` maps different labels to different ones, a renamed filter accepts exactly the renamed labels. -/
theorem C86_filter (a : LabelFilter L) (l : L) : (a.rename f g).accepts (f l) = a.accepts l := by
  have inj : ∀ {x y : L}, f x = f y ↔ x = y :=
    fun {x y} => ⟨fun h => by rw [← hg x, h, hg], fun h => by rw [h]⟩
  cases a with
  | many ls =>
    simp only [LabelFilter.rename, LabelFilter.accepts]
    induction ls with
    | nil => rfl
    | cons x xs ih =>
      simp only [List.map_cons, List.contains_cons, ih]
      congr 1
      simp only [beq_eq_decide, inj]
  | predicate p => simp only [LabelFilter.rename, LabelFilter.accepts, hg]
  | _ => simp only [LabelFilter.rename, LabelFilter.accepts, inj]

omit [DecidableEq L] [DecidableEq L'] in
theorem UpdateModifier.like_rename (m : UpdateModifier L) : UpdateModifier.Like f m (UpdateModifier.rename g m) := by
  intro l u
  cases m with
  | none => rfl
  | some m => simp only [UpdateModifier.rename, UpdateModifier.modify, Option.map_some, hg]

theorem InstrumentAdapter.like_rename {I : Type} (a : InstrumentAdapter L I) : a.Like f (a.rename f g) :=
  ⟨C86_filter hg _, UpdateModifier.like_rename hg _, rfl⟩

theorem GaugeAdapter.like_rename (a : GaugeAdapter L) : a.Like f (a.rename f g) := by
  refine ⟨?_, UpdateModifier.like_rename hg _, rfl⟩
  unfold GaugeAdapter.rename
  cases a.strategy with
  | filter _ => exact .filter (C86_filter hg _)
  | deltasOnly _ => exact .deltasOnly (C86_filter hg _)
  | incDecOnLabels _ _ => exact .incDecOnLabels (C86_filter hg _) (C86_filter hg _)

omit hg in
omit [DecidableEq L] [DecidableEq L'] in
theorem like_option {A B : Type} {R : A → B → Prop} {h : A → B} (hr : ∀ a, R a (h a)) (a : Option A) : Option.Rel R a (a.map h) := by
  cases a with
  | none => exact .none
  | some a => exact .some (hr a)

omit hg in
omit [DecidableEq L] [DecidableEq L'] in
theorem like_map {A B : Type} {R : A → B → Prop} {h : A → B} (hr : ∀ a, R a (h a)) (as : List A) :
    List.Forall₂ R as (as.map h) := by
  induction as with
  | nil => exact .nil
  | cons a as ih => exact .cons (hr a) ih

theorem PanelHead.like_rename (h : PanelHead L) : h.Like f (h.rename f g) :=
  ⟨C86_filter hg _, rfl, rfl, like_option (InstrumentAdapter.like_rename hg) _, like_option (GaugeAdapter.like_rename hg) _,
    like_option (InstrumentAdapter.like_rename hg) _, like_option (InstrumentAdapter.like_rename hg) _, rfl⟩

set_option linter.unusedSectionVars false in
mutual
theorem Panel.like_rename : ∀ p : Panel σ L, p.Like f (p.rename f g)
  | .mk h ps hs ss => by
    rw [Panel.rename]
    exact .mk (h.like_rename hg) (like_renamePanels ps) (like_renameHandlers hs) (like_renameSnapshooters ss)
theorem like_renamePanels : ∀ ps : List (Panel σ L), List.Forall₂ (Panel.Like f) ps (renamePanels f g ps)
  | [] => by rw [renamePanels]; exact .nil
  | p :: ps => by rw [renamePanels]; exact .cons (Panel.like_rename p) (like_renamePanels ps)
theorem Handler.like_rename : ∀ h : Handler σ L, h.Like f (h.rename f g)
  | .instrument a => by rw [Handler.rename]; exact .instrument (a.like_rename hg)
  | .gauge a => by rw [Handler.rename]; exact .gauge (a.like_rename hg)
  | .panel p => by rw [Handler.rename]; exact .panel (Panel.like_rename p)
  | .cockpit h ps hs ss => by
    rw [Handler.rename]
    exact .cockpit (like_renamePanels ps) (like_renameHandlers hs) (like_renameSnapshooters ss)
  | .custom s => by rw [Handler.rename]; exact .custom s
theorem like_renameHandlers : ∀ hs : List (Handler σ L), List.Forall₂ (Handler.Like f) hs (renameHandlers f g hs)
  | [] => by rw [renameHandlers]; exact .nil
  | h :: hs => by rw [renameHandlers]; exact .cons (Handler.like_rename h) (like_renameHandlers hs)
theorem Snapshooter.like_rename : ∀ s : Snapshooter σ L, s.Like f (s.rename f g)
  | .constant n d v => by rw [Snapshooter.rename]; exact .constant n d v
  | .polling n d b s => by rw [Snapshooter.rename]; exact .polling n d b (Snapshooter.like_rename s)
  | .instrument i => by rw [Snapshooter.rename]; exact .instrument i
  | .handler h => by rw [Snapshooter.rename]; exact .handler (Handler.like_rename h)
  | .custom s => by rw [Snapshooter.rename]; exact .custom s
theorem like_renameSnapshooters : ∀ ss : List (Snapshooter σ L),
    List.Forall₂ (Snapshooter.Like f) ss (renameSnapshooters f g ss)
  | [] => by rw [renameSnapshooters]; exact .nil
  | s :: ss => by rw [renameSnapshooters]; exact .cons (Snapshooter.like_rename s) (like_renameSnapshooters ss)
end

theorem Cockpit.like_rename (c : Cockpit σ L) : c.Like f (c.rename f g) :=
  ⟨rfl, like_map (Panel.like_rename hg) _, like_map (Handler.like_rename hg) _,
    like_map (Snapshooter.like_rename hg) _⟩

theorem Message.like_rename (m : Message σ L) : m.Like f (m.rename f g) := by
  cases m with
  | observation o => exact .observation o
  | addCockpit c => exact .addCockpit (c.like_rename hg)
  | removeCockpit n => exact .removeCockpit n
  | addHandler h => exact .addHandler (h.like_rename hg)
  | addPanelToCockpit n p => exact .addPanelToCockpit n (p.like_rename hg)
  | removePanelFromCockpit n m => exact .removePanelFromCockpit n m

omit hg in
omit [DecidableEq L] [DecidableEq L'] in
theorem Channel.like_map {μ ν : Type} {R : μ → ν → Prop} {h : μ → ν} (hr : ∀ m, R m (h m)) (c : Channel μ) : c.Like R (c.map h) :=
  ⟨Metrix.like_map (fun x => ⟨rfl, hr x.2⟩) _, rfl, rfl, rfl, Metrix.like_map (fun _ => ⟨Metrix.like_map hr _, rfl, rfl⟩) _⟩

theorem Processor.like_rename (p : Processor σ L) : p.Like f (p.rename f g) :=
  ⟨⟨rfl, rfl, like_map (Cockpit.like_rename hg) _, like_map (Handler.like_rename hg) _,
    like_map (Snapshooter.like_rename hg) _, rfl⟩, ⟨Channel.like_map (Message.like_rename hg) _, rfl⟩, rfl⟩

set_option linter.unusedSectionVars false in
mutual
theorem Node.like_rename : ∀ n : Node σ L, n.Like f (n.rename f g)
  | .processor p => by rw [Node.rename]; exact .processor (p.like_rename hg)
  | .mount h ns ss => by
    rw [Node.rename]; exact .mount h (like_renameNodes ns) (like_map (Snapshooter.like_rename hg) _)
  | .attached h ns ss inbox => by
    rw [Node.rename]
    exact .attached h (like_renameNodes ns) (like_map (Snapshooter.like_rename hg) _) (like_renameArrivals inbox)
  | .driver as => by rw [Node.rename]; exact .driver as
  | .custom s => by rw [Node.rename]; exact .custom s
theorem like_renameNodes : ∀ ns : List (Node σ L), List.Forall₂ (Node.Like f) ns (renameNodes f g ns)
  | [] => by rw [renameNodes]; exact .nil
  | n :: ns => by rw [renameNodes]; exact .cons (Node.like_rename n) (like_renameNodes ns)
theorem like_renameArrivals : ∀ as : List (Arrivals (Node σ L) (Snapshooter σ L)),
    List.Forall₂ (ArrivalsLike f) as (renameArrivals f g as)
  | [] => by rw [renameArrivals]; exact .nil
  | ⟨ns, ss, closed⟩ :: as => by
    rw [renameArrivals]
    exact .cons (.mk closed (like_renameNodes ns) (like_map (Snapshooter.like_rename hg) _)) (like_renameArrivals as)
end

theorem DriverMsg.like_rename (m : DriverMsg σ L) : m.Like f (m.rename f g) := by
  cases m with
  | addProcessor n => exact .addProcessor (n.like_rename hg)
  | addSnapshooter s => exact .addSnapshooter (s.like_rename hg)
  | getSnapshot id d => exact .getSnapshot id d
  | setStrategy s => exact .setStrategy s
  | pause => exact .pause
  | resume => exact .resume

theorem DriverThread.like_rename (t : DriverThread σ L) : t.Like f (t.rename f g) := by
  cases t with
  | running l =>
    exact .running ⟨rfl, rfl, rfl, rfl, rfl, like_map (Node.like_rename hg) _, like_map (Snapshooter.like_rename hg) _,
      rfl, rfl, rfl⟩ ⟨Channel.like_map (DriverMsg.like_rename hg) _, rfl⟩ rfl
  | ended c => exact .ended (Channel.like_map (DriverMsg.like_rename hg) c)

end Rename

/-- Renaming all labels, in filters and in observations, changes nothing that is returned, if different labels get
different new ones. -/
theorem C86_renamed (hc : CustomLike σ f) {g : L' → L} (hg : ∀ l, g (f l) = l) (n : Node σ L) (cs : List NodeCall) :
    (n.rename f g).results cs = n.results cs :=
  C86_results hc (n.like_rename hg) cs

/-- The same for a driver. -/
theorem C86_driver_renamed (hc : CustomLike σ f) {g : L' → L} (hg : ∀ l, g (f l) = l) (t : DriverThread σ L) (n : Nat) (e : Env)
    (k : Nat) : ((t.rename f g).iterations n e k).1.map Iteration.report = (t.iterations n e k).1.map Iteration.report ∧
      ((t.rename f g).iterations n e k).2.1 = (t.iterations n e k).2.1 :=
  have h := C86_driver hc (t.like_rename hg) n e k
  ⟨h.1, h.2.1⟩

omit [DecidableEq L] [DecidableEq L'] [Custom σ L] [Custom σ L'] [CustomProcessor σ] in
theorem Observation.relabel_id (o : Observation L) : o.relabel id = o := by cases o <;> rfl

omit [DecidableEq L] [DecidableEq L'] [Custom σ L'] [CustomProcessor σ] in
theorem customLike_id : CustomLike σ (id : L → L) :=
  ⟨fun _ _ => rfl, fun _ o => by rw [o.relabel_id], fun _ _ _ => rfl⟩

omit [Custom σ L'] [DecidableEq L'] in
/-- Filters that accept the same labels are interchangeable, however they are built. -/
theorem C86_same_filters {n n' : Node σ L} (h : n.Like id n') (cs : List NodeCall) : n'.results cs = n.results cs :=
  C86_results customLike_id h cs

/-! ## Several label types -/

section Sum
variable {L₁ L₂ : Type} [DecidableEq L₁] [DecidableEq L₂]

/-- Take the label off an observation of one of two types. -/
def Observation.side : Observation (L₁ ⊕ L₂) → Observation L₁ ⊕ Observation L₂
  | .observed (.inl l) n t => .inl (.observed l n t)
  | .observed (.inr l) n t => .inr (.observed l n t)
  | .observedOne (.inl l) t => .inl (.observedOne l t)
  | .observedOne (.inr l) t => .inr (.observedOne l t)
  | .observedOneValue (.inl l) v t => .inl (.observedOneValue l v t)
  | .observedOneValue (.inr l) v t => .inr (.observedOneValue l v t)

/-- User defined types for labels of two types. -/
@[reducible] def sumCustom (σ L₁ L₂ : Type) [Custom σ L₁] [Custom σ L₂] : Custom σ (L₁ ⊕ L₂) where
  update := Custom.update L₁
  handle s o := match o.side with
    | .inl o => Custom.handle s o
    | .inr o => Custom.handle s o
  putSnapshot := Custom.putSnapshot L₁

variable [Custom σ L₁] [Custom σ L₂]

/-- A processor with labels of one type does the same when its labels are seen as those of a larger type. So a mount of
processors with different label types can be modelled with the sum of them. -/
theorem C86_two_label_types [Inhabited L₁] [Inhabited L₂]
    (hu : ∀ (s : σ) u, Custom.update L₂ s u = Custom.update L₁ s u)
    (hp : ∀ (s : σ) into d, Custom.putSnapshot L₂ s into d = Custom.putSnapshot L₁ s into d) (cs : List NodeCall) :
    letI := sumCustom σ L₁ L₂
    (∀ n : Node σ L₁, (n.rename (Sum.inl : L₁ → L₁ ⊕ L₂) (Sum.elim id fun _ => default)).results cs = n.results cs) ∧
    (∀ n : Node σ L₂, (n.rename (Sum.inr : L₂ → L₁ ⊕ L₂) (Sum.elim (fun _ => default) id)).results cs = n.results cs) := by
  let := sumCustom σ L₁ L₂
  refine ⟨fun n => C86_renamed (f := (Sum.inl : L₁ → L₁ ⊕ L₂)) ⟨fun _ _ => rfl, fun s o => ?_, fun _ _ _ => rfl⟩ (fun l => rfl) n cs,
    fun n => C86_renamed (f := (Sum.inr : L₂ → L₁ ⊕ L₂))
      ⟨fun s u => (hu s u).symm, fun s o => ?_, fun s i d => (hp s i d).symm⟩ (fun l => rfl) n cs⟩
  · cases o <;> rfl
  · cases o <;> rfl

end Sum

/-! ## Examples

The driver of C65, with 7 added to each label: it still answers with the 9 occurrences. -/

example : CustomLike Empty (fun l : Nat => l + 7) := ⟨(fun s => nomatch s), (fun s => nomatch s), (fun s => nomatch s)⟩

example : ∀ l : Nat, (fun l => l - 7) ((fun l => l + 7) l) = l := fun l => by simp

example : (answersIn ((deliveryDriver.rename (fun l => l + 7) (fun l => l - 7)).iterations 6 ticking 2).1).map
    (fun a => (a.1, uintAt ["d", "m"] "c" a.2)) = [(1, some 9)] := by decide +kernel

/-- A processor with a counter for the labels that the filter accepts, and three observations. -/
def labelled {L : Type} (filter : LabelFilter L) (a b c : L) : Node Empty L :=
  .processor
    { state :=
        { handlers := [.instrument { labelFilter := filter, instrument := .counter { name := "n" } }]
          activity := { lastActivity := 0 } }
      receiver :=
        { chan := { queue := [(0, .observation (.observedOne a 0)), (0, .observation (.observedOne b 0)),
                              (0, .observation (.observedOne c 0))]
                    threads := [{ todo := [] }] }
          ahead := [] } }

def countOf : Option (List Reply × Nat) → Option Nat
  | some ([_, .snapshot s], _) => uintAt [] "n" s
  | _ => none

def processThenShow : List NodeCall := [.process 3 .processAll, .snapshot [] false]

/-- Two of three observations are counted, with labels of another type as well. -/
example : countOf ((labelled (.two 1 2) 1 2 3).results processThenShow ticking 0) = some 2 := by decide +kernel

example : (labelled (.two 1 2) 1 2 3).Like (fun l : Nat => l + 7) (labelled (.two 8 9) 8 9 10) :=
  (labelled (.two 1 2) 1 2 3).like_rename (g := fun l => l - 7) fun l => by simp

/-- A list of labels or a predicate: the same labels are accepted. -/
example : (labelled (.two 1 2) 1 2 3).Like (id : Nat → Nat) (labelled (.predicate fun l => l == 1 || l == 2) 1 2 3) :=
  .processor ⟨⟨rfl, rfl, .nil, .cons (.instrument ⟨fun l => by simp [LabelFilter.accepts, beq_eq_decide], fun _ _ => rfl, rfl⟩) .nil,
    .nil, rfl⟩, ⟨⟨.cons ⟨rfl, .observation _⟩ (.cons ⟨rfl, .observation _⟩ (.cons ⟨rfl, .observation _⟩ .nil)), rfl, rfl, rfl,
    .cons ⟨.nil, rfl, rfl⟩ .nil⟩, rfl⟩, rfl⟩

/-- It matters that different labels get different new ones: if 2 and 3 become the same, all three are counted. -/
example : countOf ((labelled (.two 1 2) 1 2 2).results processThenShow ticking 0) = some 3 := by decide +kernel

end Metrix
