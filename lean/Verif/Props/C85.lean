import Verif.Props.C65
import Verif.Proof.Activity

/-!
# C85 What a mounted driver shows is passed on

A driver that is mounted in another driver, directly or in mounts of any depth, is asked once for each snapshot, and what it answers
is in the snapshot, complete and in the group of the mounts around it. If it does not answer, the rest is not affected.
-/

namespace Metrix
variable {σ L : Type} [DecidableEq L] [Custom σ L] [CustomProcessor σ]

theorem Snapshot.Group.trans {path rest : List String} {s level inner : Snapshot} (h : Snapshot.Group path level s)
    (h' : Snapshot.Group rest inner level) : Snapshot.Group (path ++ rest) inner s := by
  induction path generalizing s with
  | nil => simp only [Snapshot.Group] at h; subst h; exact h'
  | cons n path ih =>
    obtain ⟨sub, hm, hg⟩ := h
    exact ⟨sub, hm, ih hg⟩

theorem Snapshot.ShowsAt.hasAt {path rest : List String} {s items : Snapshot} (h : s.ShowsAt path items) {n : String} {i : ItemKind}
    (hi : items.HasAt rest n i) : s.HasAt (path ++ rest) n i := by
  obtain ⟨level, hg, hin⟩ := h
  obtain ⟨sub, hg', hmem⟩ := hi
  cases rest with
  | nil =>
    simp only [Snapshot.Group] at hg'
    subst hg'
    exact ⟨level, by simpa using hg, hin.subset hmem⟩
  | cons r rest =>
    obtain ⟨x, hx, hg''⟩ := hg'
    exact ⟨sub, Snapshot.Group.trans hg ⟨x, hin.subset hx, hg''⟩, hmem⟩

omit [DecidableEq L] in
theorem MountedThing.driver_put {d : Bool} {e : Env} {a : Bool → Option Snapshot} {as : List (Bool → Option Snapshot)} {k k' : Nat}
    {items : Snapshot} (h : (MountedThing.driver (a :: as) : MountedThing σ L).Put d e k items k') : items = (a d).getD [] := by
  obtain ⟨into, h, -⟩ := h
  unfold putAnswer at h
  cases ha : a d with
  | none => simp only [ha] at h; simpa using h.symm
  | some s => simp only [ha] at h; simpa using h.symm

omit [DecidableEq L] [Custom σ L] [CustomProcessor σ] in
theorem Node.exhibits_driver {n : Node σ L} {way : List Nat} {as : List (Bool → Option Snapshot)} (hn : n.at way = some (.driver as)) :
    ∃ around, ⟨n.mountsTo way, around, .driver as⟩ ∈ n.exhibits := by
  induction way generalizing n with
  | nil =>
    simp only [Node.at, Option.some.injEq] at hn
    subst hn
    exact ⟨[], by rw [Node.exhibits]; exact List.mem_singleton.mpr rfl⟩
  | cons j way ih =>
    simp only [Node.at, Option.bind_eq_some_iff] at hn
    obtain ⟨m, hm, hn⟩ := hn
    obtain ⟨ar, h⟩ := ih hn
    have h2 := mem_exhibitsOfNodes (List.mem_of_getElem? hm) h
    simp only [Node.mountsTo, hm, Option.map_some, Option.getD_some]
    cases n with
    | mount hd ns ss =>
      exact ⟨hd.activity :: ar, by rw [Node.exhibits]; exact List.mem_map.mpr ⟨_, List.mem_append_left _ h2, rfl⟩⟩
    | attached hd ns ss inbox =>
      exact ⟨hd.activity :: ar, by rw [Node.exhibits]; exact List.mem_map.mpr ⟨_, List.mem_append_left _ h2, rfl⟩⟩
    | _ => simp [Node.children] at hm

omit [DecidableEq L] [Custom σ L] [CustomProcessor σ] in
theorem LoopState.exhibits_driver {l : LoopState σ L} {index : Nat} {way : List Nat} {n : Node σ L} {as : List (Bool → Option Snapshot)}
    (hn : l.processors[index]? = some n) (hw : n.at way = some (.driver as)) :
    ∃ around, ⟨l.name.toList ++ n.mountsTo way, around, .driver as⟩ ∈ l.exhibits := by
  obtain ⟨ar, h⟩ := Node.exhibits_driver hw
  have h2 := mem_exhibitsOfNodes (List.mem_of_getElem? hn) h
  exact ⟨ar, List.mem_map.mpr ⟨_, List.mem_append_left _ (List.mem_append_left _ h2), rfl⟩⟩

variable {e : Env} {k k' : Nat} {d : Bool} {l l' : LoopState σ L} {s : Snapshot} {index : Nat} {way : List Nat} {n : Node σ L}
  {answer : Bool → Option Snapshot} {later : List (Bool → Option Snapshot)}

omit [DecidableEq L] in
/-- **All of the answer is shown.** A driver makes a snapshot. Another driver is mounted in it, anywhere, and answers with `inner`. Then the
items of `inner` are in the snapshot, next to each other and in their order, in the group of the mounts around the mounted driver.
So whatever `inner` has in some group, the snapshot has in the corresponding group. -/
theorem C85_passed_on (hc : CustomProper σ L) (mono : e.Mono) (h : l.makeSnapshot d e k = some ((l', s), k'))
    (hvis : l.AllVisible (e.clock k')) (hn : l.processors[index]? = some n) (hw : n.at way = some (.driver (answer :: later)))
    {inner : Snapshot} (ha : answer d = some inner) :
    s.ShowsAt (l.name.toList ++ n.mountsTo way) inner ∧
    ∀ path name i, inner.HasAt path name i → s.HasAt (l.name.toList ++ n.mountsTo way ++ path) name i := by
  obtain ⟨around, hx⟩ := LoopState.exhibits_driver hn hw
  obtain ⟨k₁, k₂, items, -, -, hput, hshow⟩ := (C59_driver hc mono h).shown _ hx (hvis _ hx)
  have hitems := MountedThing.driver_put hput
  rw [ha, Option.getD_some] at hitems
  subst hitems
  exact ⟨hshow, fun path name i hi => hshow.hasAt hi⟩

omit [DecidableEq L] in
/-- **If it does not answer, nothing is shown of it**, and everything else is shown as without it: whatever is in the snapshot (without
texts) was put by something else, or is one of the groups, or a flag. And all others put their items. -/
theorem C85_no_answer (hc : CustomProper σ L) (mono : e.Mono) (h : l.makeSnapshot false e k = some ((l', s), k'))
    (ha : answer false = none) :
    (∀ x ∈ l.exhibits, (∀ a ∈ x.around, a.ShowsValuesAt (e.clock k')) →
      ∃ k₁ k₂ items, k ≤ k₁ ∧ k₂ ≤ k' ∧ x.thing.Put false e k₁ items k₂ ∧ s.ShowsAt x.path items) ∧
    ∀ path name i, s.HasAt path name i →
      (∃ x ∈ l.exhibits, x.thing ≠ .driver (answer :: later) ∧ ∃ k₁ k₂ items rest, path = x.path ++ rest ∧ k ≤ k₁ ∧ k₂ ≤ k' ∧
        x.thing.Put false e k₁ items k₂ ∧ items.HasAt rest name i) ∨
      (path ++ [name] ∈ l.groups ∧ ∃ s', i = .snapshot s') ∨
      (name ∈ ["_active", "_inactive"] ∧ (path = [] ∨ path ∈ l.groups)) := by
  have hd := C59_driver hc mono h
  refine ⟨hd.shown, fun path name i hi => ?_⟩
  rcases hd.nothingElse rfl path name i hi with ⟨x, hx, k₁, k₂, items, rest, h1, h2, h3, h4, h5⟩ | h | h
  · refine .inl ⟨x, hx, fun hthing => ?_, k₁, k₂, items, rest, h1, h2, h3, h4, h5⟩
    rw [hthing] at h4
    have := MountedThing.driver_put h4
    rw [ha, Option.getD_none] at this
    subst this
    obtain ⟨level, hg, hm⟩ := h5
    cases rest with
    | nil => simp only [Snapshot.Group] at hg; subst hg; cases hm
    | cons => obtain ⟨sub, hsub, -⟩ := hg; cases hsub
  · exact .inr (.inl h)
  · exact .inr (.inr h)

/-! ## In the life of a driver -/

/-- How long a mount may go without activity before it hides its contents. -/
def Node.limit : Node σ L → Option Nat
  | .mount h _ _ => h.maxInactivity
  | .attached h _ _ _ => h.maxInactivity
  | _ => none

/-- The same for all mounts on the way to a place below a node. -/
def Node.limitsTo : List Nat → Node σ L → List (Option Nat)
  | [], _ => []
  | i :: path, n => n.limit :: (n.children[i]?.map (Node.limitsTo path)).getD []

/-- No mount on the way to a place below a node ever counts as inactive. -/
def Node.OpenTo (path : List Nat) (n : Node σ L) : Prop := ∀ limit ∈ n.limitsTo path, limit = none

/-- `n'` has the driver at the same place as `n`. It has given at most `c` answers; exactly `c` if no mount hides it. -/
def Node.Asked (path : List Nat) (c : Nat) (n n' : Node σ L) : Prop :=
  ∀ as, n.at path = some (.driver as) →
    ∃ m, m ≤ c ∧ n'.at path = some (.driver (as.drop m)) ∧ n'.mountsTo path = n.mountsTo path ∧ n'.limitsTo path = n.limitsTo path ∧
      (n.OpenTo path → m = c)

omit [DecidableEq L] [Custom σ L] [CustomProcessor σ] in
theorem Node.Asked.refl (path : List Nat) (n : Node σ L) : Node.Asked path 0 n n :=
  fun _ ha => ⟨0, Nat.le_refl _, ha, rfl, rfl, fun _ => rfl⟩

omit [DecidableEq L] [Custom σ L] [CustomProcessor σ] in
theorem Node.Asked.trans {path : List Nat} {c c' : Nat} {n n₁ n' : Node σ L} (h : Node.Asked path c n n₁)
    (h' : Node.Asked path c' n₁ n') : Node.Asked path (c + c') n n' := by
  intro as ha
  obtain ⟨m, h1, h2, h3, h4, h5⟩ := h as ha
  obtain ⟨m', g1, g2, g3, g4, g5⟩ := h' _ h2
  refine ⟨m + m', by omega, by rw [← List.drop_drop]; exact g2, g3.trans h3, g4.trans h4, fun hopen => ?_⟩
  rw [h5 hopen, g5 (by unfold Node.OpenTo; rw [h4]; exact hopen)]

theorem MountHead.afterRun_limit {h h' : MountHead} {o : Outcome} (hr : h.afterRun o e k = some (h', k')) :
    h'.maxInactivity = h.maxInactivity := by
  unfold MountHead.afterRun at hr
  split at hr
  · simp only [M.bind_eq_some, M.run_pure, Option.some.injEq, Prod.mk.injEq] at hr
    obtain ⟨_, _, _, rfl, _⟩ := hr
    rfl
  · simp only [M.run_pure, Option.some.injEq, Prod.mk.injEq] at hr
    obtain ⟨rfl, _⟩ := hr
    rfl

theorem Node.process_limit {max : Nat} {st : Strategy} {n n' : Node σ L} {o : Outcome}
    (h : n.process max st e k = some ((n', o), k')) : n'.limit = n.limit := by
  cases n with
  | mount hd ns ss =>
    simp only [Node.process, M.bind_eq_some, M.run_pure, Option.some.injEq, Prod.mk.injEq] at h
    obtain ⟨⟨ns', o₁⟩, k₁, h1, hd', k₂, h2, ⟨rfl, rfl⟩, rfl⟩ := h
    exact MountHead.afterRun_limit h2
  | attached hd ns ss inbox =>
    cases inbox with
    | nil =>
      simp only [Node.process, M.bind_eq_some, M.run_pure, Option.some.injEq, Prod.mk.injEq] at h
      obtain ⟨⟨ns', o₁⟩, k₁, h1, hd', k₂, h2, ⟨rfl, rfl⟩, rfl⟩ := h
      exact MountHead.afterRun_limit h2
    | cons arrivals inbox =>
      obtain ⟨ps, ss', closed⟩ := arrivals
      simp only [Node.process, M.bind_eq_some, M.run_pure, Option.some.injEq, Prod.mk.injEq] at h
      obtain ⟨⟨ns', o₁⟩, k₁, h1, ⟨ps', o₂⟩, k₂, h2, hd', k₃, h3, ⟨rfl, rfl⟩, rfl⟩ := h
      exact MountHead.afterRun_limit h3
  | processor p =>
    simp only [Node.process, M.bind_eq_some, M.run_pure, Option.some.injEq, Prod.mk.injEq] at h
    obtain ⟨_, _, _, ⟨rfl, _⟩, _⟩ := h
    rfl
  | driver as =>
    simp only [Node.process, M.run_pure, Option.some.injEq, Prod.mk.injEq] at h
    obtain ⟨⟨rfl, _⟩, _⟩ := h
    rfl
  | custom c =>
    simp only [Node.process, M.bind_eq_some, M.run_pure, Option.some.injEq, Prod.mk.injEq] at h
    obtain ⟨_, _, _, ⟨rfl, _⟩, _⟩ := h
    rfl

omit [DecidableEq L] in
/-- A snapshot does not change for how long a mount may be inactive. A mount for which there is no limit makes snapshots of all its
children. -/
theorem Node.snapshot_open (hc : CustomForward σ L) (hp : CustomProcessorForward σ) {into s : Snapshot} {n n' m : Node σ L} {i : Nat}
    (h : n.putSnapshot d into e k = some ((n', s), k')) (hx : n.children[i]? = some m) :
    n'.limit = n.limit ∧ (n.limit = none → ∃ m' t t' k₁ k₂, m.putSnapshot d t e k₁ = some ((m', t'), k₂) ∧ n'.children[i]? = some m') := by
  cases n with
  | mount hd ns ss =>
    simp only [Node.putSnapshot, M.bind_eq_some] at h
    obtain ⟨⟨go, level⟩, k₁, h1, h⟩ := h
    cases go with
    | false =>
      simp only [Bool.false_eq_true, if_false, M.run_pure, Option.some.injEq, Prod.mk.injEq] at h
      obtain ⟨⟨rfl, rfl⟩, rfl⟩ := h
      refine ⟨rfl, fun hl => ?_⟩
      have hl : hd.activity.maxInactivity = none := hl
      rw [putFlags_none hl] at h1
      cases h1
    | true =>
      simp only [if_true, M.bind_eq_some, M.run_pure, Option.some.injEq, Prod.mk.injEq] at h
      obtain ⟨⟨ns', l₁⟩, k₂, h2, ⟨ss', l₂⟩, k₃, h3, ⟨rfl, rfl⟩, rfl⟩ := h
      obtain ⟨m', t, t', j₁, j₂, a, b, c, d⟩ :=
        ((putNodes_inTurn h2).get fun _ _ => Node.fwd_putSnapshot hc hp _ _ _).2 i m hx
      exact ⟨rfl, fun _ => ⟨m', t, t', j₁, j₂, b, d⟩⟩
  | attached hd ns ss inbox =>
    simp only [Node.putSnapshot, M.bind_eq_some] at h
    obtain ⟨⟨go, level⟩, k₁, h1, h⟩ := h
    cases go with
    | false =>
      simp only [Bool.false_eq_true, if_false, M.run_pure, Option.some.injEq, Prod.mk.injEq] at h
      obtain ⟨⟨rfl, rfl⟩, rfl⟩ := h
      refine ⟨rfl, fun hl => ?_⟩
      have hl : hd.activity.maxInactivity = none := hl
      rw [putFlags_none hl] at h1
      cases h1
    | true =>
      simp only [if_true, M.bind_eq_some, M.run_pure, Option.some.injEq, Prod.mk.injEq] at h
      obtain ⟨⟨ns', l₁⟩, k₂, h2, ⟨ss', l₂⟩, k₃, h3, ⟨rfl, rfl⟩, rfl⟩ := h
      obtain ⟨m', t, t', j₁, j₂, a, b, c, d⟩ :=
        ((putNodes_inTurn h2).get fun _ _ => Node.fwd_putSnapshot hc hp _ _ _).2 i m hx
      exact ⟨rfl, fun _ => ⟨m', t, t', j₁, j₂, b, d⟩⟩
  | _ => simp [Node.children] at hx

theorem putAnswer_rest (d : Bool) (as : List (Bool → Option Snapshot)) (into : Snapshot) : (putAnswer d as into).1 = as.drop 1 := by
  cases as with
  | nil => rfl
  | cons a as => unfold putAnswer; cases h : a d <;> simp only [h] <;> rfl

/-- It is not asked in a run. -/
theorem Node.asked_process (hc : CustomForward σ L) (hp : CustomProcessorForward σ) {max : Nat} {st : Strategy}
    {n n' : Node σ L} {o : Outcome} (path : List Nat) (h : n.process max st e k = some ((n', o), k')) :
    Node.Asked path 0 n n' := by
  induction path generalizing n n' k k' o with
  | nil =>
    intro as hn
    simp only [Node.at, Option.some.injEq] at hn
    subst hn
    simp only [Node.process, M.run_pure, Option.some.injEq, Prod.mk.injEq] at h
    obtain ⟨⟨rfl, -⟩, -⟩ := h
    exact Node.Asked.refl _ _ as rfl
  | cons i path ih =>
    intro as hn
    simp only [Node.at] at hn
    cases hx : n.children[i]? with
    | none => rw [hx] at hn; cases hn
    | some m =>
      rw [hx] at hn
      obtain ⟨m', o', k₁, k₂, h1, h2, h3, h4, h5⟩ := Node.process_child hc hp h hx
      obtain ⟨j, hj, ha, hg, hl, hex⟩ := ih h2 as hn
      refine ⟨j, hj, ?_, ?_, ?_, fun _ => by omega⟩
      · simp only [Node.at, h4]; exact ha
      · simp only [Node.mountsTo, h4, hx, h5, Option.map_some, Option.getD_some, hg]
      · simp only [Node.limitsTo, h4, hx, Node.process_limit h, Option.map_some, Option.getD_some, hl]

/-- In a snapshot it is asked at most once; if no mount hides it, it is asked. -/
theorem Node.asked_snapshot (hc : CustomForward σ L) (hp : CustomProcessorForward σ) {into s : Snapshot}
    {n n' : Node σ L} (path : List Nat) (h : n.putSnapshot d into e k = some ((n', s), k')) :
    Node.Asked path 1 n n' := by
  induction path generalizing n n' k k' into s with
  | nil =>
    intro as hn
    simp only [Node.at, Option.some.injEq] at hn
    subst hn
    simp only [Node.putSnapshot, M.run_pure, Option.some.injEq, Prod.mk.injEq] at h
    obtain ⟨⟨rfl, -⟩, -⟩ := h
    exact ⟨1, Nat.le_refl _, by rw [putAnswer_rest]; rfl, rfl, rfl, fun _ => rfl⟩
  | cons i path ih =>
    intro as hn
    simp only [Node.at] at hn
    cases hx : n.children[i]? with
    | none => rw [hx] at hn; cases hn
    | some m =>
      rw [hx] at hn
      obtain ⟨hname, key⟩ := Node.snapshot_child hc hp h hx
      obtain ⟨hlimit, hopen⟩ := Node.snapshot_open hc hp h hx
      have step : ∀ {m' t t' k₁ k₂}, m.putSnapshot d t e k₁ = some ((m', t'), k₂) → n'.children[i]? = some m' →
          ∃ j, j ≤ 1 ∧ n'.at (i :: path) = some (.driver (as.drop j)) ∧ n'.mountsTo (i :: path) = n.mountsTo (i :: path) ∧
            n'.limitsTo (i :: path) = n.limitsTo (i :: path) ∧ (n.OpenTo (i :: path) → j = 1) := by
        intro m' t t' k₁ k₂ h2 h4
        obtain ⟨j, hj, ha, hg, hl, hex⟩ := ih h2 as hn
        refine ⟨j, hj, ?_, ?_, ?_, fun ho => hex fun x hxm => ho x ?_⟩
        · simp only [Node.at, h4]; exact ha
        · simp only [Node.mountsTo, h4, hx, hname, Option.map_some, Option.getD_some, hg]
        · simp only [Node.limitsTo, h4, hx, hlimit, Option.map_some, Option.getD_some, hl]
        · simp only [Node.limitsTo, hx, Option.map_some, Option.getD_some]
          exact List.mem_cons_of_mem _ hxm
      by_cases hnone : n.limit = none
      · obtain ⟨m', t, t', k₁, k₂, h2, h4⟩ := hopen hnone
        exact step h2 h4
      · rcases key with h4 | ⟨m', t, t', k₁, k₂, h1, h2, h3, h4⟩
        · refine ⟨0, Nat.zero_le _, by simp only [Node.at, h4]; exact hn, by simp only [Node.mountsTo, h4, hx, hname],
            by simp only [Node.limitsTo, h4, hx, hlimit], fun ho => ?_⟩
          exact absurd (ho _ (by simp only [Node.limitsTo]; exact List.mem_cons_self)) hnone
        · exact step h2 h4

/-- **It is asked once for each snapshot**, unless a mount around it hides it because of inactivity, and never in a run. -/
theorem C85_asked (hc : CustomForward σ L) (hp : CustomProcessorForward σ) {as : List (Bool → Option Snapshot)}
    (hn : n.at way = some (.driver as)) {n' : Node σ L} :
    (∀ max st o, n.process max st e k = some ((n', o), k') → n'.at way = some (.driver as)) ∧
    ∀ d into s, n.putSnapshot d into e k = some ((n', s), k') →
      (n'.at way = some (.driver as) ∨ n'.at way = some (.driver (as.drop 1))) ∧
      (n.OpenTo way → n'.at way = some (.driver (as.drop 1))) := by
  constructor
  · intro max st o h
    obtain ⟨m, h1, h2, _⟩ := Node.asked_process hc hp way h as hn
    obtain rfl : m = 0 := by omega
    exact h2
  · intro d into s h
    obtain ⟨m, h1, h2, _, _, h5⟩ := Node.asked_snapshot hc hp way h as hn
    refine ⟨?_, fun ho => by rw [h2, h5 ho]⟩
    have : m = 0 ∨ m = 1 := by omega
    rcases this with rfl | rfl
    · exact .inl h2
    · exact .inr h2

/-- The number of requests for a snapshot among some messages. -/
def requestsIn (ms : List (DriverMsg σ L)) : Nat :=
  ms.countP fun m => match m with
    | .getSnapshot _ _ => true
    | _ => false

/-- The same for the processors of a driver. -/
def LoopState.Asked (i : Nat) (path : List Nat) (c : Nat) (l l' : LoopState σ L) : Prop :=
  ∀ n, l.processors[i]? = some n → ∃ n', l'.processors[i]? = some n' ∧ Node.Asked path c n n'

omit [DecidableEq L] [Custom σ L] [CustomProcessor σ] in
theorem LoopState.Asked.trans {i : Nat} {path : List Nat} {c c' : Nat} {l l₁ l' : LoopState σ L} (h : l.Asked i path c l₁)
    (h' : l₁.Asked i path c' l') : l.Asked i path (c + c') l' := by
  intro n hn
  obtain ⟨n₁, h1, h2⟩ := h n hn
  obtain ⟨n', h3, h4⟩ := h' n₁ h1
  exact ⟨n', h3, h2.trans h4⟩

theorem asked_handle (hc : CustomForward σ L) (hp : CustomProcessorForward σ) {m : DriverMsg σ L} {answer : Option Snapshot} (i : Nat)
    (path : List Nat) (h : l.handle m e k = some ((l', answer), k')) : l.Asked i path (requestsIn [m]) l' := by
  have same : ∀ l₁ : LoopState σ L, l₁.processors = l.processors → l.Asked i path 0 l₁ :=
    fun l₁ h n hn => ⟨n, by rw [h]; exact hn, .refl _ _⟩
  cases m with
  | getSnapshot id d =>
    simp only [LoopState.handle, M.bind_eq_some, M.run_pure, Option.some.injEq, Prod.mk.injEq] at h
    obtain ⟨⟨l₁, s⟩, k₁, hmake, ⟨rfl, rfl⟩, rfl⟩ := h
    obtain ⟨level, hv, rfl⟩ := makeSnapshot_spec hmake
    obtain ⟨ps, ss, items₁, items₂, k₂, k₃, metrics, entry, hps, hs, -, -, hm, rfl, hrest⟩ := addSnapshotValues_spec hv
    have hget := hps.get fun _ _ => Node.fwd_putSnapshot hc hp _ _ _
    intro n hn
    obtain ⟨n', t, t', j₁, j₂, a, b, c, x⟩ := hget.2 i n hn
    exact ⟨n', x, Node.asked_snapshot hc hp path b⟩
  | addProcessor n =>
    simp only [LoopState.handle, M.run_pure, Option.some.injEq, Prod.mk.injEq] at h
    obtain ⟨⟨rfl, rfl⟩, rfl⟩ := h
    intro m hm
    refine ⟨m, ?_, .refl _ _⟩
    obtain ⟨hlt, _⟩ := List.getElem?_eq_some_iff.mp hm
    simp only
    rw [List.getElem?_append_left hlt, hm]
  | addSnapshooter n =>
    simp only [LoopState.handle, M.run_pure, Option.some.injEq, Prod.mk.injEq] at h
    obtain ⟨⟨rfl, rfl⟩, rfl⟩ := h
    exact same _ rfl
  | setStrategy s =>
    simp only [LoopState.handle, M.run_pure, Option.some.injEq, Prod.mk.injEq] at h
    obtain ⟨⟨rfl, rfl⟩, rfl⟩ := h
    exact same _ rfl
  | pause =>
    simp only [LoopState.handle, M.run_pure, Option.some.injEq, Prod.mk.injEq] at h
    obtain ⟨⟨rfl, rfl⟩, rfl⟩ := h
    exact same _ rfl
  | resume =>
    simp only [LoopState.handle, M.run_pure, Option.some.injEq, Prod.mk.injEq] at h
    obtain ⟨⟨rfl, rfl⟩, rfl⟩ := h
    exact same _ rfl

theorem asked_begin (hc : CustomForward σ L) (hp : CustomProcessorForward σ) {m : Option (DriverMsg σ L)} {started : Int}
    {answer : Option Snapshot} (i : Nat) (path : List Nat) (h : l.begin m e k = some ((l', started, answer), k')) :
    l.Asked i path (requestsIn m.toList) l' := by
  rcases (begin_spec h).2 with ⟨rfl, rfl, rfl, rfl⟩ | ⟨m', rfl, hh⟩
  · exact fun n hn => ⟨n, hn, .refl _ _⟩
  · exact asked_handle hc hp i path hh

/-- In a run no mounted driver is asked: the same argument as for what happens to the processors in a run. -/
theorem asked_work (hc : CustomForward σ L) (hp : CustomProcessorForward σ) {started : Int} {outcome : Option Outcome}
    {rest : Option Nap} (i : Nat) (path : List Nat) (h : l.work started e k = some ((l', outcome, rest), k')) :
    l.Asked i path 0 l' := by
  rcases work_spec h with ⟨h1, rfl, rfl, rfl⟩ | ⟨h1, o, ps, k₁, t, c, w, l₁, k₂, k₃, rfl, h3, rfl, hk, l₂, h5, h6⟩
  · exact fun n hn => ⟨n, hn, .refl _ _⟩
  · obtain ⟨m₂, rfl, _, h7⟩ := noteRun_spec h5
    have hps : l'.processors = ps := by
      rcases h6 with ⟨rfl, rfl⟩ | ⟨rt, h6⟩
      · rfl
      · obtain ⟨m₃, rfl, _, h8⟩ := reportElapsed_spec h6
        rfl
    intro n hn
    obtain ⟨os, h4, _⟩ := processNodes_inTurn h3
    obtain ⟨n', o', j₁, j₂, a, b, c, x⟩ := (h4.get hc hp).2 i n hn
    exact ⟨n', by rw [hps]; exact x, Node.asked_process hc hp path b⟩

theorem DriverLife.asked (hc : CustomForward σ L) (hp : CustomProcessorForward σ) {l l' : Loop σ L} {log : List (Iteration σ L)}
    (i : Nat) (path : List Nat) (h : DriverLife e k (.running l) log k' (.running l')) :
    l.state.Asked i path (requestsIn (handled log)) l'.state := by
  suffices ∀ {t t' : DriverThread σ L} {l l' : Loop σ L}, DriverLife e k t log k' t' → t = .running l → t' = .running l' →
      l.state.Asked i path (requestsIn (handled log)) l'.state from this h rfl rfl
  clear h l l'
  intro t t' l l' h
  induction h generalizing l with
  | nil hk =>
    rintro rfl h
    cases h
    exact fun n hn => ⟨n, hn, .refl _ _⟩
  | @iteration k k₁ k₂ k' t t₁ t' it log hk hi hl ih =>
    rintro rfl rfl
    have notEnded : ∀ c, t₁ ≠ .ended c := by
      intro c hc
      obtain ⟨_, s, h2⟩ := hl.ended hc
      cases h2
    cases iterates hi with
    | panicEarly hp hb => exact absurd rfl (notEnded _)
    | panicLate hp hb hw => exact absurd rfl (notEnded _)
    | done hpl hb hw =>
      rename_i r m s started answer j s' outcome rest
      have h1 := asked_begin hc hp i path hb
      have h2 := asked_work hc hp i path hw
      have h3 := (h1.trans h2).trans (ih rfl rfl)
      cases m with
      | none =>
        have heq : requestsIn (Option.none (α := DriverMsg σ L)).toList + 0 + requestsIn (handled log) = requestsIn (handled log) := by
          simp [requestsIn]
        rw [heq] at h3
        exact h3
      | some m =>
        have heq : requestsIn (some m).toList + 0 + requestsIn (handled log) = requestsIn (m :: handled log) := by
          simp only [requestsIn, Option.toList_some, List.countP_cons, List.countP_nil]
          omega
        rw [heq] at h3
        exact h3
  | @over k k₁ k₂ k' t t₁ t' log _ hi hl ih =>
    rintro rfl rfl
    cases iterates hi with
    | stop hp =>
      obtain ⟨_, s, h2⟩ := hl.ended rfl
      cases h2
  | others hl ih => rintro hl; cases hl

section Life
variable {name : Option String} {descr : Descr} {strategy : Strategy} {withMetrics : Bool}
  {handles : List (SendThread (DriverMsg σ L))} {t : DriverThread σ L} {before after : List (Iteration σ L)} {i : Iteration σ L}
  {l₁ : Loop σ L} {as : List (Bool → Option Snapshot)}

/-- **For as long as the driver lives.** A driver is added to another driver, on its own or within mounts. However long the other
driver has been running since, the mounted driver is still there. It has been asked (`asked`) once for each request for a snapshot, or
less often if a mount hides it because of inactivity. The next snapshot shows the next answer in the group of the mounts that were
around it when it was added. -/
theorem C85_life (hc : CustomProper σ L) (mono : e.Mono) (hnew : NewDriver e k name descr strategy withMetrics handles t)
    (h : DriverLife e k t (before ++ i :: after) k' (.running l₁)) (hi : i.message = some (.addProcessor n))
    (hn : n.at way = some (.driver as)) :
    ∃ asked, asked ≤ requestsIn (handled after) ∧ (n.OpenTo way → asked = requestsIn (handled after)) ∧
      ∀ {a : Bool → Option Snapshot} {d : Bool} {inner : Snapshot}, as[asked]? = some a → a d = some inner →
      ∀ {k₂ k₃ : Nat} {l₂ : LoopState σ L} {s : Snapshot}, l₁.state.makeSnapshot d e k₂ = some ((l₂, s), k₃) →
        l₁.state.AllVisible (e.clock k₃) →
        s.ShowsAt (name.toList ++ n.mountsTo way) inner ∧
        ∀ path nm item, inner.HasAt path nm item → s.HasAt (name.toList ++ n.mountsTo way ++ path) nm item := by
  have hname := DriverLife.keepsName hnew h
  obtain ⟨k₁, t₁, h1, h2⟩ := h.split
  obtain ⟨l₀, k₂, k₃, t₂, rfl, hk2, hit, h3⟩ := h2.next rfl
  cases iterates hit with
  | panicEarly _ _ => obtain ⟨_, s, hh⟩ := h3.ended rfl; cases hh
  | panicLate _ _ _ => obtain ⟨_, s, hh⟩ := h3.ended rfl; cases hh
  | done hpl hb hw =>
    rename_i r m s started answer k₄ s' outcome rest
    simp only at hi
    subst hi
    rcases (begin_spec hb).2 with ⟨hm, _⟩ | ⟨m', hm, hh⟩
    · cases hm
    · cases hm
      simp only [LoopState.handle, M.run_pure, Option.some.injEq, Prod.mk.injEq] at hh
      obtain ⟨⟨rfl, rfl⟩, rfl⟩ := hh
      obtain ⟨n', hn', hr⟩ := ((asked_work hc.forward hc.processorForward l₀.state.processors.length way hw).trans
        (DriverLife.asked hc.forward hc.processorForward l₀.state.processors.length way h3)) n (by simp)
      obtain ⟨m, hle, hat, hmounts, -, hexact⟩ := hr as hn
      refine ⟨m, by omega, fun ho => by have := hexact ho; omega, fun {a d inner} ha had {k₂ k₃ l₂ s} hs hvis => ?_⟩
      have hdrop : as.drop m = a :: as.drop (m + 1) := by
        obtain ⟨hlt, rfl⟩ := List.getElem?_eq_some_iff.mp ha
        exact List.drop_eq_getElem_cons hlt
      rw [hdrop] at hat
      have := C85_passed_on hc mono hs hvis hn' hat had
      rwa [hmounts, hname] at this

end Life

/-! ## Drivers in drivers in drivers -/

/-- `PassedOn path s inner`: `s` is the snapshot `inner` itself, or it was made by a driver in which a driver is mounted that
answered with a snapshot to which `inner` was passed on. `path` has the names of all drivers and mounts on the way. -/
inductive PassedOn : List String → Snapshot → Snapshot → Prop
  | same (s : Snapshot) : PassedOn [] s s
  | driver {σ L : Type} [Custom σ L] [CustomProcessor σ] (proper : CustomProper σ L) {e : Env} (mono : e.Mono) {k k' : Nat} {d : Bool}
      {l l' : LoopState σ L} {s : Snapshot} (made : l.makeSnapshot d e k = some ((l', s), k')) (visible : l.AllVisible (e.clock k'))
      {index : Nat} {n : Node σ L} (mounted : l.processors[index]? = some n) {way : List Nat} {answer : Bool → Option Snapshot}
      {later : List (Bool → Option Snapshot)} (here : n.at way = some (.driver (answer :: later))) {next inner : Snapshot}
      (answered : answer d = some next) {path : List String} (further : PassedOn path next inner) :
      PassedOn (l.name.toList ++ n.mountsTo way ++ path) s inner

/-- **To any depth.** -/
theorem C85_nested {path : List String} {s inner : Snapshot} (h : PassedOn path s inner) {rest : List String} {name : String}
    {item : ItemKind} (hi : inner.HasAt rest name item) : s.HasAt (path ++ rest) name item := by
  induction h with
  | same => exact hi
  | driver hc mono made visible mounted here answered further ih =>
    have := (C85_passed_on hc mono made visible mounted here answered).2 _ _ _ (ih hi)
    rwa [← List.append_assoc] at this

section Counter
variable {name : Option String} {descr : Descr} {withMetrics : Bool} {handles : List (SendThread (DriverMsg σ L))}
  {t : DriverThread σ L} {before after : List (Iteration σ L)} {i : Iteration σ L} {l₁ : Loop σ L} {p : Processor σ L}
  {programs : List (SendThread (Message σ L))}

/-- **From a transmitter to the outermost driver.** Observations are sent to a processor of a driver, which has run often enough. It is
mounted in a driver that is mounted in a driver, and so on. When its answer has been passed on, the snapshot of the outermost driver
shows the counter with all occurrences sent and meant for it. -/
theorem C85_counter (hc : CustomProper σ L) (mono : e.Mono)
    (hnew : NewDriver e k name descr .processAll withMetrics handles t)
    (h : DriverLife e k t (before ++ i :: after) k' (.running l₁)) (hi : i.message = some (.addProcessor n))
    (hn : n.at way = some (.processor p))
    (hstrategy : ∀ s, DriverMsg.setStrategy s ∈ handled (before ++ i :: after) → s = .processAll)
    (hcomp : p.Completes programs (runsOf (i :: after)).length)
    {place : Place} {filters : List (LabelFilter L)} {f : LabelFilter L} {c : Counter}
    (hplace : p.state.leafAt place = some (filters, .instrument ⟨f, .counter c, none⟩))
    (hstays : place.Stays programs) (hcount : c.count < 2 ^ 64) {groups : List String} (hgroups : p.state.groupsAt place = some groups)
    {k₂ k₃ : Nat} {t₂ : DriverThread σ L} {next : Iteration σ L} {id : Nat} {inner : Snapshot}
    (hnext : (DriverThread.running l₁).iterate e k₂ = (t₂, some next, k₃)) (hanswer : next.answered = some (id, inner))
    (hvis : l₁.state.AllVisible (e.clock k₃)) {path : List String} (hpassed : PassedOn path s inner) :
    s.HasAt (path ++ (name.toList ++ n.mountsTo way ++ groups)) c.name
      (.uint ((c.count + ((observationsFor filters f programs).map Observation.occurrences).sum) % 2 ^ 64)) :=
  C85_nested hpassed (C65_answer hc mono hnew h hi hn hstrategy hcomp hplace hstays hcount hgroups hnext hanswer hvis)

end Counter

/-! ## Example

The driver of C65 is in a mount "inner" of a driver without a name, and this one is mounted in a driver "top". -/

/-- What the driver of C65 answers: its snapshot in the sixth iteration. -/
def deliveredAnswer : Snapshot := ((answersIn (deliveryLog 6)).map (·.2)).headD []

def middleNode : Node Empty Nat :=
  .mount { name := some "inner", lastActivity := 0 } [.driver [fun _ => none, fun _ => some deliveredAnswer]] []

def middleState : LoopState Empty Nat :=
  { name := none, descr := {}, metrics := none, lastOutcomeLogged := 0, strategy := .processAll, processors := [middleNode] }

/-- Its first snapshot: there is no answer. -/
def middleFirst : Option (LoopState Empty Nat × Snapshot) := (middleState.makeSnapshot false ticking 5).map (·.1)

example : (match middleFirst with | some (_, s) => some (s.map (·.1), uintAt ["inner", "d", "m"] "c" s) | none => none) =
    some (["inner"], none) := by decide +kernel

def middleLater : LoopState Empty Nat := (middleFirst.map (·.1)).getD middleState

def middleSnapshot : Snapshot := ((middleLater.makeSnapshot false ticking 9).map (·.1.2)).getD []

def topState : LoopState Empty Nat :=
  { name := some "top", descr := {}, metrics := none, lastOutcomeLogged := 0, strategy := .processAll
    processors := [.driver [fun _ => some middleSnapshot]] }

/-- The counter started with 1; there are 8 occurrences for it. -/
example : (match topState.makeSnapshot false ticking 12 with | some ((_, s), _) => uintAt ["top", "inner", "d", "m"] "c" s | none => none) =
    some 9 := by decide +kernel

/-- The driver's name and the mount's name around it. -/
example : middleLater.processors.map (fun n => n.mountsTo [0]) = [["inner"]] ∧
    middleLater.processors.map (fun n => match n.at [0] with | some (.driver as) => as.length | _ => 0) = [1] := by decide +kernel

/-- Nothing in these two becomes inactive. -/
theorem middle_visible (t : Int) : middleLater.AllVisible t ∧ topState.AllVisible t := by
  have h1 : middleLater.exhibits.map (fun x => x.around.map (·.maxInactivity)) = [[none]] := by decide +kernel
  have h2 : topState.exhibits.map (fun x => x.around.map (·.maxInactivity)) = [[]] := by decide +kernel
  have key : ∀ l : LoopState Empty Nat, (∀ y ∈ l.exhibits.map (fun x => x.around.map (·.maxInactivity)), ∀ z ∈ y, z = none) →
      l.AllVisible t := by
    intro l h x hx a ha
    refine .inr fun dd hd => ?_
    have := h _ (List.mem_map.mpr ⟨x, hx, rfl⟩) a.maxInactivity (List.mem_map.mpr ⟨a, ha, rfl⟩)
    rw [this] at hd; cases hd
  exact ⟨key _ (by rw [h1]; simp), key _ (by rw [h2]; simp)⟩

/-- So the answer of the driver of C65 is passed on through both. -/
example (hc : CustomProper Empty Nat) : ∃ s, PassedOn (["top"] ++ ([] ++ ["inner"] ++ [])) s deliveredAnswer := by
  have hm : ∃ l' k', middleLater.makeSnapshot false ticking 9 = some ((l', middleSnapshot), k') := by
    unfold middleSnapshot
    cases h : middleLater.makeSnapshot false ticking 9 with
    | none =>
      have : (middleLater.makeSnapshot false ticking 9).isSome = true := by decide +kernel
      rw [h] at this; cases this
    | some r => exact ⟨r.1.1, r.2, rfl⟩
  obtain ⟨l', k', hm⟩ := hm
  have ht : ∃ l' s k', topState.makeSnapshot false ticking 12 = some ((l', s), k') := by
    cases h : topState.makeSnapshot false ticking 12 with
    | none =>
      have : (topState.makeSnapshot false ticking 12).isSome = true := by decide +kernel
      rw [h] at this; cases this
    | some r => exact ⟨r.1.1, r.1.2, r.2, rfl⟩
  obtain ⟨l₂, s, k₂, ht⟩ := ht
  refine ⟨s, ?_⟩
  have h1 : PassedOn ([] ++ ["inner"] ++ []) middleSnapshot deliveredAnswer :=
    PassedOn.driver (n := .mount { name := some "inner", lastActivity := 0 } [.driver [fun _ => some deliveredAnswer]] [])
      (index := 0) (way := [0]) (answer := fun _ => some deliveredAnswer) (later := []) hc ticking_mono hm
      (middle_visible _).1 rfl rfl rfl (.same _)
  exact PassedOn.driver (index := 0) (way := []) hc ticking_mono ht (middle_visible _).2 rfl rfl rfl h1

/-! A driver that adds `middleNode` and answers three requests. The mounted driver answers the first two of them, the first time with an
error. -/

def askedPrograms : List (SendThread (DriverMsg Empty Nat)) :=
  [{ todo := [.addProcessor middleNode, .getSnapshot 1 false, .pause, .getSnapshot 2 false, .getSnapshot 3 true], drops := false }]

def askedDriver : DriverThread Empty Nat :=
  .running { state := { name := some "d", descr := {}, metrics := none, lastOutcomeLogged := -59300000000, strategy := .processAll }
             receiver := { chan := .fresh none true askedPrograms, ahead := List.replicate 8 [0] } }

example : NewDriver ticking 2 (some "d") {} .processAll false askedPrograms askedDriver := ⟨1, _, _, _, rfl, rfl⟩

def askedLog : List (Iteration Empty Nat) := (askedDriver.iterations 5 ticking 2).1

example : (askedLog.map fun i => i.message.isSome) = [true, true, true, true, true] ∧ requestsIn (handled askedLog) = 3 ∧
    (answersIn askedLog).map (fun a => (a.1, uintAt ["d", "inner", "d", "m"] "c" a.2)) = [(1, none), (2, some 9), (3, none)] := by
  decide +kernel

end Metrix
