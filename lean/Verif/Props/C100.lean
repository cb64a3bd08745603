import Verif.Proof.RenamedDriver
import Verif.Props.C86

/-!
# C100: names only name, and texts only describe

Two programs that differ in names and descriptive texts only (`Spec.Renamed`) report the same outcomes, and their snapshots without
descriptions have the same values, groups and order.
-/

namespace Metrix
variable {σ L : Type} [DecidableEq L] [Custom σ L] [CustomProcessor σ] {ρ : String → String}

theorem M.Rel.map_eq {A B X : Type} {R : A → B → Prop} {x : M A} {y : M B} (h : M.Rel R x y) {u : A → X} {v : B → X}
    (huv : ∀ a b, R a b → u a = v b) : (u <$> x : M X) = v <$> y := by
  funext e k
  have := h e k
  rw [run_map, run_map]
  cases hx : x e k with
  | none =>
    rw [hx] at this
    cases hy : y e k with
    | none => rfl
    | some b => rw [hy] at this; cases this
  | some a =>
    rw [hx] at this
    cases hy : y e k with
    | none => rw [hy] at this; cases this
    | some b =>
      rw [hy] at this
      cases this with
      | some h => rw [Option.map_some, Option.map_some, h.1, huv _ _ h.2]

theorem renamed_results (hρ : Function.Injective ρ) (hc : CustomFrames σ L) (hp : CustomProcessorFrames σ)
    (cs : List NodeCall) (hcs : ∀ c ∈ cs, c.Plain) {n n' : Node σ L} (h : n.Renamed ρ n') :
    M.Rel (fun a b => a.map Reply.unnamed = b.map Reply.unnamed) (n.results cs) (n'.results cs) := by
  induction cs generalizing n n' with
  | nil => exact .pure rfl
  | cons c cs ih =>
    have hcs' : ∀ c ∈ cs, c.Plain := fun c h => hcs c (List.mem_cons_of_mem _ h)
    cases c with
    | process max strategy =>
      refine .bind _ (h.process hρ max strategy) ?_
      rintro ⟨a, o⟩ ⟨b, _⟩ ⟨rfl, h⟩
      refine .bind _ (ih hcs' h) fun rs rs' hr => .pure ?_
      rw [List.map_cons, List.map_cons, hr]
    | snapshot into d =>
      have hd : d = false := hcs _ List.mem_cons_self
      subst hd
      refine .bind _ (h.put hc hp (s := into) rfl) ?_
      rintro ⟨a, s⟩ ⟨b, t⟩ ⟨e, h⟩
      refine .bind _ (ih hcs' h) fun rs rs' hr => .pure ?_
      simp only at e
      simp only [List.map_cons, Reply.unnamed, hr, e]

/-- Everything that can be mounted, with other names and texts: whatever is done with it, the same outcomes are returned, and snapshots with
the same values, groups and order. If one panics, so does the other, and the clock is read as often. -/
theorem C100_results (hρ : Function.Injective ρ) (hc : CustomFrames σ L) (hp : CustomProcessorFrames σ) {n n' : Node σ L}
    (h : n.Renamed ρ n') (cs : List NodeCall) (hcs : ∀ c ∈ cs, c.Plain) :
    List.map Reply.unnamed <$> n'.results cs = List.map Reply.unnamed <$> n.results cs :=
  ((renamed_results hρ hc hp cs hcs h).map_eq fun _ _ h => h).symm

omit [DecidableEq L] [Custom σ L] [CustomProcessor σ] in
theorem Iteration.Renamed.report {a b : Iteration σ L} (h : a.Renamed ρ b) : b.report.unnamed = a.report.unnamed := by
  obtain ⟨m, an, o, r⟩ := a
  obtain ⟨m', an', o', r'⟩ := b
  obtain ⟨h1, h2, h3, h4⟩ := h
  simp only at h1 h2 h3 h4
  subst h3 h4
  cases h1 with
  | none => cases an <;> cases an' <;> rfl
  | some h1 =>
    cases h1 with
    | getSnapshot id =>
      cases an with
      | none => cases an' with
        | none => rfl
        | some _ => cases h2
      | some x => cases an' with
        | none => cases h2
        | some y =>
          have := Option.some.inj h2
          simp only [Iteration.report, IterationReport.unnamed, Iteration.answered, Option.map_some, this]
    | _ => cases an <;> cases an' <;> rfl

/-- Drivers with other names and texts: in any number of iterations they give answers with the same values, groups and order to the same
requests, report the same outcomes, sleep equally long and read the clock equally often. -/
theorem C100_driver (hρ : Function.Injective ρ) (hc : CustomFrames σ L) (hp : CustomProcessorFrames σ) {t t' : DriverThread σ L}
    (h : t.Renamed ρ t') (n : Nat) (e : Env) (k : Nat) :
    (t'.iterations n e k).1.map (·.report.unnamed) = (t.iterations n e k).1.map (·.report.unnamed) ∧
      (t'.iterations n e k).2.1 = (t.iterations n e k).2.1 ∧ (t.iterations n e k).2.2.Renamed ρ (t'.iterations n e k).2.2 := by
  induction n generalizing t t' k with
  | zero => exact ⟨rfl, rfl, h⟩
  | succ n ih =>
    obtain ⟨h1, h2, h3⟩ := h.iterate hρ hc hp e k
    unfold DriverThread.iterations
    generalize t.iterate e k = x at h1 h2 h3 ⊢
    generalize t'.iterate e k = y at h1 h2 h3 ⊢
    obtain ⟨t₁, i, k₁⟩ := x
    obtain ⟨t₁', i', k₁'⟩ := y
    simp only at h1 h2 h3 ⊢
    subst h3
    obtain ⟨h4, h5, h6⟩ := ih h1 k₁
    refine ⟨?_, h5, h6⟩
    simp only [List.map_append, h4]
    congr 1
    cases h2 with
    | none => rfl
    | some h2 => simp only [Option.toList_some, List.map_cons, List.map_nil, h2.report]

omit [CustomProcessor σ] in
/-- A single observation changes as many instruments, whatever their names. -/
theorem C100_observation {p p' : Panel σ L} (h : p.Renamed ρ p') (o : Observation L) :
    (fun r : Panel σ L × Nat => r.2) <$> p'.handle o = (fun r => r.2) <$> p.handle o :=
  ((Panel.Renamed.handle o h).map_eq fun _ _ h => h.1).symm

/-! ## Examples -/

theorem emptyFrames : CustomFrames Empty Nat := fun s => s.elim
theorem emptyProcessorFrames : CustomProcessorFrames Empty := fun s => s.elim

/-- A panel with a counter. -/
def countingPanel (name counter : String) (title : Option String) : Panel Empty Nat :=
  .mk { labelFilter := .acceptAll, name := some name, descr := { title }, activity := { lastActivity := 0 },
        counter := some { labelFilter := .acceptAll, instrument := { name := counter } } } [] [] []

def cockpitWith (name panel counter : String) (title : Option String) : Cockpit Empty Nat :=
  { head := { name := some name, descr := { title }, activity := { lastActivity := 0 } }, panels := [countingPanel panel counter title] }

/-- A processor with two cockpits. It gets an observation, another cockpit with the name of the first one, the request to remove the second
one, another observation, and a further panel for the first one. -/
def namedProcessor (p a b q c : String) (title : Option String) : Node Empty Nat :=
  .processor
    { state :=
        { name := some p, descr := { title }, cockpits := [cockpitWith a q c title, cockpitWith b q c title]
          activity := { lastActivity := 0 } }
      receiver :=
        { chan := { queue := [(0, .observation (.observedOne 1 0)), (0, .addCockpit (cockpitWith a q c title)), (0, .removeCockpit b),
                              (0, .observation (.observedOne 2 0)), (0, .addPanelToCockpit a (countingPanel b c title))]
                    threads := [{ todo := [] }] }
          ahead := [] } }

def processFive : List NodeCall := [.process 5 .processAll, .snapshot [] false]

theorem renamed_countingPanel {ρ : String → String} (q c d : String) (t u : Option String) :
    (countingPanel q c t).Renamed ρ (countingPanel (ρ q) d u) :=
  .mk ⟨rfl, rfl, .some ⟨_, rfl, _, _, rfl⟩, .none, .none, .none, rfl⟩ .nil .nil .nil

theorem renamed_cockpitWith {ρ : String → String} (a q c d : String) (t u : Option String) :
    (cockpitWith a q c t).Renamed ρ (cockpitWith (ρ a) (ρ q) d u) :=
  ⟨⟨rfl, rfl⟩, .cons (renamed_countingPanel q c d t u) .nil, .nil, .nil⟩

theorem renamed_namedProcessor {ρ : String → String} (p a b q c d : String) (t u : Option String) :
    (namedProcessor p a b q c t).Renamed ρ (namedProcessor (ρ p) (ρ a) (ρ b) (ρ q) d u) :=
  .processor ⟨⟨rfl, .cons (renamed_cockpitWith ..) (.cons (renamed_cockpitWith ..) .nil), .nil, .nil, rfl⟩,
    ⟨⟨.cons ⟨rfl, .observation _⟩ (.cons ⟨rfl, .addCockpit (renamed_cockpitWith ..)⟩ (.cons ⟨rfl, .removeCockpit _⟩
      (.cons ⟨rfl, .observation _⟩ (.cons ⟨rfl, .addPanelToCockpit _ (renamed_countingPanel ..)⟩ .nil)))), rfl, rfl, rfl,
      .cons ⟨.nil, rfl, rfl⟩ .nil⟩, rfl⟩, rfl⟩

theorem prefix_injective (s : String) : Function.Injective (fun n => s ++ n) := fun a b h => by
  have := congrArg String.toList h
  simpa [String.toList_append, ← String.toList_inj] using this

/-- How many messages were processed, how many instruments were updated, and the values of a counter in some panels. -/
def seenIn (n : Node Empty Nat) (counter : String) (panels : List (List String)) : Option (Nat × Nat × List (Option Nat)) :=
  match n.results processFive ticking 0 with
  | some ([.outcome o, .snapshot s], _) => some (o.processed, o.instrumentsUpdated, panels.map fun path => uintAt path counter s)
  | _ => none

/-- The cockpit with the name of the first one is not added, the second one is removed, and the panel is added to the first one. -/
example : seenIn (namedProcessor "p" "a" "b" "q" "c" none) "c" [["p", "a", "q"], ["p", "a", "b"], ["p", "b", "q"]] =
    some (5, 3, [some 2, some 0, none]) := by decide +kernel

example := C100_results (prefix_injective "x_") emptyFrames emptyProcessorFrames (renamed_namedProcessor "p" "a" "b" "q" "c" "count" none (some "T"))
  processFive (by rintro _ (_ | ⟨_, _ | ⟨_, ⟨⟩⟩⟩) <;> trivial)

/-- With other names the same is shown, under these. -/
example : seenIn (namedProcessor "x_p" "x_a" "x_b" "x_q" "count" (some "T")) "count"
    [["x_p", "x_a", "x_q"], ["x_p", "x_a", "x_b"], ["x_p", "x_b", "x_q"]] = some (5, 3, [some 2, some 0, none]) := by decide +kernel

/-- It matters that different names remain different: if the second cockpit gets the name of the first one, both are removed. -/
example : seenIn (namedProcessor "p" "a" "a" "q" "c" none) "c" [["p", "a", "q"]] = some (5, 2, [none]) := by decide +kernel

example : Snapshot.unnamed [("p", .snapshot [("c", .uint 2)])] = [("", .snapshot [("", .uint 2)])] := rfl

example := C100_observation (renamed_countingPanel (ρ := fun n => "x_" ++ n) "q" "c" "count" none (some "T")) (.observedOne 1 0)

/-- A driver with such a processor and a request for a snapshot. -/
def namedDriver (name p a b q c : String) (title : Option String) : DriverThread Empty Nat :=
  .running
    { state := { name := some name, descr := { title }, metrics := none, lastOutcomeLogged := 0, strategy := .processAll,
                 processors := [namedProcessor p a b q c title] }
      receiver := { chan := { queue := [(0, .pause), (0, .resume), (0, .getSnapshot 7 false)], threads := [{ todo := [] }] }, ahead := [] } }

theorem renamed_namedDriver {ρ : String → String} (name p a b q c d : String) (t u : Option String) :
    (namedDriver name p a b q c t).Renamed ρ (namedDriver (ρ name) (ρ p) (ρ a) (ρ b) (ρ q) d u) :=
  .running ⟨rfl, rfl, rfl, rfl, .cons (renamed_namedProcessor ..) .nil, .nil, rfl, rfl, rfl⟩
    ⟨⟨.cons ⟨rfl, .pause⟩ (.cons ⟨rfl, .resume⟩ (.cons ⟨rfl, .getSnapshot _⟩ .nil)), rfl, rfl, rfl, .cons ⟨.nil, rfl, rfl⟩ .nil⟩, rfl⟩ rfl

example := C100_driver (prefix_injective "x_") emptyFrames emptyProcessorFrames
  (renamed_namedDriver "d" "p" "a" "b" "q" "c" "count" none (some "T")) 3 ticking 0

example : (answersIn ((namedDriver "d" "p" "a" "b" "q" "c" none).iterations 3 ticking 0).1).map
      (fun a => (a.1, uintAt ["d", "p", "a", "q"] "c" a.2)) = [(7, some 2)] ∧
    (answersIn ((namedDriver "x_d" "x_p" "x_a" "x_b" "x_q" "count" (some "T")).iterations 3 ticking 0).1).map
      (fun a => (a.1, uintAt ["x_d", "x_p", "x_a", "x_q"] "count" a.2)) = [(7, some 2)] := by decide +kernel

end Metrix
