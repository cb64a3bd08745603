import Verif.Spec.Distinct
import Verif.Props.C42
import Verif.Props.C43
import Verif.Props.C65
import Verif.Props.C70

/-!
# C73: Without name clashes in the configuration nothing in a snapshot is hidden

If no group of the schema uses a name twice, then every item of every snapshot is found under its path, and it is in the
JSON under that path.
-/

namespace Metrix
variable {σ L : Type}

/-! ## Schemas without clashes -/

theorem Slot.Admits.name {x : Slot} {n : String} {v : ItemKind} (h : x.Admits n v) : n ∈ x.names := by
  cases h <;> simp [Slot.names]

theorem Conforms.names_subset {slots : List Slot} {s : Snapshot} (h : Conforms slots s) {x : String × ItemKind} (hx : x ∈ s) :
    x.1 ∈ namesIn slots := (C70_keys h).1.subset (List.mem_map.mpr ⟨x, hx, rfl⟩)

theorem nodup_append_of_disjoint {s t : Snapshot} (hs : (s.map (·.1)).Nodup) (ht : (t.map (·.1)).Nodup)
    (h : ∀ x ∈ s, ∀ y ∈ t, x.1 ≠ y.1) : ((s ++ t).map (·.1)).Nodup := by
  rw [List.map_append, List.nodup_append]
  refine ⟨hs, ht, ?_⟩
  intro a ha b hb
  obtain ⟨x, hx, rfl⟩ := List.mem_map.mp ha
  obtain ⟨y, hy, rfl⟩ := List.mem_map.mp hb
  exact h x hx y hy

theorem Conforms.nodup : ∀ {slots : List Slot} {s : Snapshot}, Conforms slots s → Distinct slots → (s.map (·.1)).Nodup
  | _, _, .nil, _ => List.nodup_nil
  | _, _, .item hi hs, hd => by
    obtain ⟨-, h2, h3⟩ := hd
    refine nodup_append_of_disjoint (s := [_]) (by simp) (hs.nodup h2) ?_
    intro x hx y hy heq
    rw [List.mem_singleton.mp hx] at heq
    have := hs.names_subset hy
    rw [← heq] at this
    exact h3 _ hi.name this
  | _, _, .left ha ht, hd => by
    obtain ⟨h1, h2, h3⟩ := hd
    refine nodup_append_of_disjoint (ha.nodup h1.1) (ht.nodup h2) ?_
    intro x hx y hy heq
    refine h3 x.1 (List.mem_append_left _ (ha.names_subset hx)) ?_
    rw [heq]; exact ht.names_subset hy
  | _, _, .right hb ht, hd => by
    obtain ⟨h1, h2, h3⟩ := hd
    refine nodup_append_of_disjoint (hb.nodup h1.2) (ht.nodup h2) ?_
    intro x hx y hy heq
    refine h3 x.1 (List.mem_append_right _ (hb.names_subset hx)) ?_
    rw [heq]; exact ht.names_subset hy

mutual
theorem Slot.Distinct.flat : ∀ {x : Slot}, x.Distinct → ∀ y ∈ x.flat, y.Distinct
  | .either a b, h, y, hy => by
    rcases List.mem_append.mp hy with hy | hy
    · exact distinct_flat h.1 y hy
    · exact distinct_flat h.2 y hy
  | .group n slots, h, y, hy => by rw [List.mem_singleton.mp hy]; exact h
  | .value n kinds, h, y, hy => by rw [List.mem_singleton.mp hy]; exact h
  | .fixed n v, h, y, hy => by rw [List.mem_singleton.mp hy]; exact h
  | .any n, h, y, hy => by rw [List.mem_singleton.mp hy]; exact h

theorem distinct_flat : ∀ {slots : List Slot}, Distinct slots → ∀ y ∈ flatSlots slots, y.Distinct
  | [], _, y, hy => by cases hy
  | x :: xs, h, y, hy => by
    rcases List.mem_append.mp hy with hy | hy
    · exact h.1.flat y hy
    · exact distinct_flat h.2.1 y hy
end

/-- Without clashes in the schema every item is the only one with its path. -/
theorem C73_unique {slots : List Slot} {s : Snapshot} (h : Conforms slots s) (hd : Distinct slots) {path : List String}
    (hp : IntoGroups slots path) {n : String} {v : ItemKind} (hv : s.HasAt path n v) : UniquelyAt s (path ++ [n]) v := by
  induction path generalizing slots s with
  | nil =>
    obtain ⟨level, hl, hm⟩ := hv
    cases hl
    exact .here (h.nodup hd) hm
  | cons g path ih =>
    obtain ⟨level, ⟨sub, hs, hl⟩, hm⟩ := hv
    obtain ⟨x, hx, ha⟩ := (C70_keys h).2.2 _ hs
    obtain ⟨slots', rfl, hp'⟩ := hp x hx ha.name
    cases ha with
    | group hsub => exact .inside (h.nodup hd) hs (ih hsub (distinct_flat hd _ hx) hp' ⟨level, hl, hm⟩)

/-- What can be seen of an item from outside: it is what lookups by its path result in, and it is in the JSON at that path. -/
structure Visible (s : Snapshot) (path : List String) (v : ItemKind) : Prop where
  find : ∀ sep, (∀ n ∈ path, PathName sep n) → s.findWithSeparator (joinPath sep path) sep = .found v
  json : ∀ b, (s.toJson b).at path = some (v.toJson b)

theorem visible_of_unique {s : Snapshot} {path : List String} {v : ItemKind} (h : UniquelyAt s path v) : Visible s path v where
  find := fun _ hn => C42_found h hn
  json := follow_json h

theorem C73_visible {slots : List Slot} {s : Snapshot} (h : Conforms slots s) (hd : Distinct slots) {path : List String}
    (hp : IntoGroups slots path) {n : String} {v : ItemKind} (hv : s.HasAt path n v) : Visible s (path ++ [n]) v :=
  visible_of_unique (C73_unique h hd hp hv)

/-! ## Processors and drivers -/

section
variable [DecidableEq L] [Custom σ L] [CustomProcessor σ] {e : Env} {k k' : Nat}

/-- All snapshots of a processor whose names do not clash, as long as it is not reconfigured. -/
theorem C73_processor {u : Bool → List Slot} {p p' : Processor σ L} (hc : CustomFits σ L u) {log : List (Called σ L)}
    (h : Life e k p log k' p')
    (hcalls : ∀ c ∈ log, c.call.isSetting = false) (hmessages : p.receiver.chan.Expects (·.isSetting = false))
    {c : Called σ L} (hcl : c ∈ log) {s : Snapshot} {d : Bool} (hcall : c.call = .snapshot [] d)
    (hreply : c.reply = .snapshot s) (hd : Distinct (p.state.slots u d)) {path : List String}
    (hpath : IntoGroups (p.state.slots u d) path) {n : String} {v : ItemKind} (hv : s.HasAt path n v) :
    Visible s (path ++ [n]) v := by
  obtain ⟨items, rfl, hi⟩ := C70_processor hc h hcalls hmessages hcl hcall hreply
  exact C73_visible hi hd hpath hv

variable {u : Outside} {name : Option String} {descr : Descr} {strategy : Strategy} {withMetrics : Bool}
  {handles : List (SendThread (DriverMsg σ L))} {t t' : DriverThread σ L} {log before after : List (Iteration σ L)}
  {i : Iteration σ L}

/-- The schema of what a driver answers after these iterations. -/
abbrev slotsAfter (u : Outside) (d : Bool) (name : Option String) (descr : Descr) (withMetrics : Bool) (log : List (Iteration σ L)) :
    List Slot :=
  driverSlots u d name descr (addedProcessors (handled log)) (addedSnapshooters (handled log)) withMetrics

theorem answered_eq {i : Iteration σ L} {id : Nat} {s : Snapshot} (h : i.answered = some (id, s)) :
    ∃ d, i.message = some (.getSnapshot id d) ∧ i.answer = some s := by
  unfold Iteration.answered at h
  split at h
  · rename_i h1 h2
    cases h
    exact ⟨_, h1, h2⟩
  · cases h

/-- All answers of a driver, if the names of its processors and snapshooters do not clash. -/
theorem C73_driver (hc : CustomFits σ L u.components) (hp : CustomProcessorFits σ u.processors)
    (hnew : NewDriver e k name descr strategy withMetrics handles t) (h : DriverLife e k t log k' t')
    (hlog : log = before ++ i :: after) (hsettled : ∀ n ∈ addedProcessors (handled before), n.Settled u)
    {id : Nat} {s : Snapshot} (hs : i.answered = some (id, s))
    (hd : ∀ d, Distinct (slotsAfter u d name descr withMetrics before))
    {path : List String} (hpath : ∀ d, IntoGroups (slotsAfter u d name descr withMetrics before) path)
    {n : String} {v : ItemKind} (hv : s.HasAt path n v) : Visible s (path ++ [n]) v := by
  obtain ⟨d, h1, h2⟩ := answered_eq hs
  exact C73_visible (C70_driver hc hp hnew h hlog hsettled h1 h2) (hd d) (hpath d) hv

omit [DecidableEq L] [Custom σ L] [CustomProcessor σ] in
theorem handled_append (a b : List (Iteration σ L)) : handled (a ++ b) = handled a ++ handled b := by
  simp [handled]

theorem DriverLife.snoc {t'' : DriverThread σ L} {k₂ k₃ : Nat} (h : DriverLife e k t log k' t') (hk : k' ≤ k₂)
    (hi : t'.iterate e k₂ = (t'', some i, k₃)) : DriverLife e k t (log ++ [i]) k₃ t'' := by
  induction h with
  | nil h => exact .iteration (Nat.le_trans h hk) hi (.nil (Nat.le_refl _))
  | iteration h1 h2 _ ih => exact .iteration h1 h2 (ih hk hi)
  | over h1 h2 _ ih => exact .over h1 h2 (ih hk hi)
  | others _ ih => exact .others (ih hk hi)

/-- From the observation to the lookup. A processor `p` was added to a driver, the handles of the processor are used up, and the
driver has run often enough. Then whoever asks the driver for a snapshot and looks for the path of a counter finds the number
of all occurrences that were sent and meant for it, and so does whoever reads the JSON. -/
theorem C73_counter (hcp : CustomProper σ L) (hc : CustomFits σ L u.components) (hp : CustomProcessorFits σ u.processors) (mono : e.Mono)
    (hnew : NewDriver e k name descr .processAll withMetrics handles t) {l' : Loop σ L}
    (h : DriverLife e k t (before ++ i :: after) k' (.running l')) {n : Node σ L} (hi : i.message = some (.addProcessor n))
    {way : List Nat} {p : Processor σ L} (hn : n.at way = some (.processor p))
    (hstrategy : ∀ s, DriverMsg.setStrategy s ∈ handled (before ++ i :: after) → s = .processAll)
    {programs : List (SendThread (Message σ L))} (hcomp : p.Completes programs (runsOf (i :: after)).length)
    {place : Place} {way' : List (LabelFilter L)} {f : LabelFilter L} {c : Counter}
    (hplace : p.state.leafAt place = some (way', .instrument ⟨f, .counter c, none⟩))
    (hstays : place.Stays programs) (hcount : c.count < 2 ^ 64) {groups : List String} (hgroups : p.state.groupsAt place = some groups)
    {k₂ k₃ : Nat} {t'' : DriverThread σ L} {next : Iteration σ L} {id : Nat} {s : Snapshot} (hk : k' ≤ k₂)
    (hnext : (DriverThread.running l').iterate e k₂ = (t'', some next, k₃)) (hanswer : next.answered = some (id, s))
    (hvis : l'.state.AllVisible (e.clock k₃))
    (hsettled : ∀ n ∈ addedProcessors (handled (before ++ i :: after)), n.Settled u)
    (hd : ∀ d, Distinct (slotsAfter u d name descr withMetrics (before ++ i :: after)))
    {path : List String} (hpath : path = name.toList ++ n.mountsTo way ++ groups)
    (hinto : ∀ d, IntoGroups (slotsAfter u d name descr withMetrics (before ++ i :: after)) path) :
    Visible s (path ++ [c.name])
      (.uint ((c.count + ((observationsFor way' f programs).map Observation.occurrences).sum) % 2 ^ 64)) := by
  subst hpath
  exact C73_driver hc hp hnew (h.snoc hk hnext) rfl hsettled hanswer hd hinto
    (C65_answer hcp mono hnew h hi hn hstrategy hcomp hplace hstays hcount hgroups hnext hanswer hvis)

end

/-! ## Findings -/

/-- A gauge "a", a counter "a_peak", and what they show one after the other. -/
def clashing : M Snapshot := do
  let g ← ({ name := "a", value := some 7, groupValues := false } : Gauge).setTracking 1
  let (_, s) ← g.putSnapshot [] false
  return ({ name := "a_peak", count := 3 } : Counter).putSnapshot s false

/-- Finding: different names of instruments are not enough. A gauge that tracks its peaks and a counter can show values of the
same name; then a lookup finds only the first and the JSON contains only the last of them. -/
theorem C73_finding_derived_names : ∃ s k, clashing ticking 1 = some (s, k) ∧ s.find "a_peak" = .found (.int 7) ∧
    (s.toJson false).at ["a_peak"] = some (.num 3) ∧ s.HasAt [] "a_peak" (.int 7) ∧ s.HasAt [] "a_peak" (.uint 3) := by
  refine ⟨_, _, rfl, rfl, rfl, ⟨_, rfl, ?_⟩, ⟨_, rfl, ?_⟩⟩
  · exact .tail _ (.head _)
  · simp [Counter.putSnapshot, putPostfixedDescriptives, Snapshot.push]

/-- Finding: groups of the same name are not merged. What is in the second of them cannot be found at all, even if its own name is
used only once, and the JSON does not contain what is in the first. -/
theorem C73_finding_groups_not_merged : ∃ s : Snapshot, s.HasAt ["g"] "b" (.int 2) ∧ s.HasAt ["g"] "a" (.int 1) ∧
    s.find "g/b" = .notFound ∧ (s.toJson false).at ["g", "a"] = none :=
  ⟨[("g", .snapshot [("a", .int 1)]), ("g", .snapshot [("b", .int 2)])],
    ⟨_, ⟨_, List.mem_cons_of_mem _ (List.mem_cons_self ..), rfl⟩, List.mem_cons_self ..⟩,
    ⟨_, ⟨_, List.mem_cons_self .., rfl⟩, List.mem_cons_self ..⟩, rfl, rfl⟩

/-! ## Examples -/

/-- The driver of C65 with the processor of C60: a counter, a gauge and a histogram in two groups. -/
example (d : Bool) : driverSlots nothingOutside d (some "d") {} [deliveredNode] [] false =
    [.group "d" [.group "m" [.value "c" [.uint], .maybe [.value "g" [.int]], .group "h" Histogram.valueSlots]]] := by
  cases d <;> rfl

example (d : Bool) : Distinct (driverSlots nothingOutside d (some "d") {} [deliveredNode] [] false) := by
  rw [show driverSlots nothingOutside d (some "d") {} [deliveredNode] [] false =
    [.group "d" [.group "m" [.value "c" [.uint], .maybe [.value "g" [.int]], .group "h" Histogram.valueSlots]]] by cases d <;> rfl]
  simp [Distinct, Slot.Distinct, Slot.names, namesIn, Histogram.valueSlots, statisticsSlots]

example (d : Bool) : IntoGroups (driverSlots nothingOutside d (some "d") {} [deliveredNode] [] false) ["d", "m"] := by
  rw [show driverSlots nothingOutside d (some "d") {} [deliveredNode] [] false =
    [.group "d" [.group "m" [.value "c" [.uint], .maybe [.value "g" [.int]], .group "h" Histogram.valueSlots]]] by cases d <;> rfl]
  simp [IntoGroups, flatSlots, Slot.flat, Slot.names]

example : deliveredNode.Settled nothingOutside := by
  simp only [deliveredNode, Node.Settled, SettledNodes, deliveredProcessor, totalProcessor, Channel.Expects, Channel.fresh,
    totalPrograms, List.not_mem_nil, false_implies, implies_true, List.mem_cons, or_false, true_and, and_true]
  rintro th (rfl | rfl) <;> simp [Message.isSetting]

/-- The number that is found. -/
def foundUint (s : Snapshot) (path : String) : Option Nat :=
  match s.find path with
  | .found (.uint n) => some n
  | _ => none

example : (answersIn (deliveryLog 6)).map (fun a => (a.1, foundUint a.2 "d/m/c")) = [(1, some 9)] := by decide +kernel

example : joinPath '/' ["d", "m", "c"] = "d/m/c" ∧ ∀ n ∈ ["d", "m", "c"], PathName '/' n :=
  ⟨by decide +kernel, by simp [PathName]⟩

end Metrix
