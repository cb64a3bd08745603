import Verif.Proof.Arranged
import Verif.Props.C47
import Verif.Props.C98
import Verif.Props.C101

/-!
# C102 Processors can be arranged in any way

What is added to a mount can be added in any order, and it does not matter whether it is in a mount within the mount, as long as that mount
has neither a name nor a limit on the inactivity. For all later runs and snapshots: every run has the same outcome, and every snapshot
shows the same in another order.
-/

namespace Metrix
variable {σ L : Type}

/-- For two mounts with the same processors in them, arranged in another way: whatever is done with one of them and, at the same moments,
with the other one, gives the same results. -/
theorem C102_mounts [DecidableEq L] [Custom σ L] [CustomProcessor σ] (hc : CustomStill σ L) (hp : CustomProcessorStill σ)
    (ha : CustomFrames σ L) (hq : CustomProcessorFrames σ) {e : Env} (mono : e.Mono) {n n' : Node σ L} (h : n.Reordered n')
    (hr : RingsOk n.instruments) (hr' : RingsOk n'.instruments) (hd : n.NoDriver) (hd' : n'.NoDriver) {calls : List (Nat × NodeCall)}
    (ho : calls.Pairwise (·.1 ≤ ·.1)) (hn : ∀ c ∈ calls, c.2.Plain) :
    Option.Rel (fun r r' => List.Forall₂ Reply.Reordered (r.2.map (·.2.2)) (r'.2.map (·.2.2))) (callsAt Node.call e n calls)
      (callsAt Node.call e n' calls) := by
  suffices key : ∀ (t : Int) {n n' a a' : Node σ L}, (∀ c ∈ calls, t ≤ e.clock c.1) → n.Alike e.rnd t a → a.Reordered a' →
      n'.Alike e.rnd t a' →
      Option.Rel (fun r r' => List.Forall₂ Reply.Reordered (r.2.map (·.2.2)) (r'.2.map (·.2.2))) (callsAt Node.call e n calls)
        (callsAt Node.call e n' calls) by
    cases calls with
    | nil => exact .some .nil
    | cons c calls =>
      refine key (e.clock c.1) ?_ (Node.alike_refl _ _ hr hd) h (Node.alike_refl _ _ hr' hd')
      intro d hd
      rcases List.mem_cons.1 hd with rfl | hd
      · exact le_refl _
      · exact mono _ _ ((List.pairwise_cons.1 ho).1 d hd)
  clear h hr hr' hd hd'
  induction calls with
  | nil => exact fun _ _ _ _ _ _ _ _ _ => .some .nil
  | cons c calls ih =>
    intro t n n' a a' ht h1 h2 h3
    obtain ⟨m, c⟩ := c
    replace ih := ih (List.pairwise_cons.1 ho).2 fun c hc => hn c (List.mem_cons_of_mem _ hc)
    have hm : ∀ c ∈ calls, e.clock m ≤ e.clock c.1 := fun c hc => mono _ _ ((List.pairwise_cons.1 ho).1 c hc)
    have h1 := h1.mono (ht _ List.mem_cons_self)
    have h3 := h3.mono (ht _ List.mem_cons_self)
    have call : M.Sync (e.at m) (fun r r' => r.2.Reordered r'.2 ∧ ∃ b b', r.1.Alike e.rnd (e.clock m) b ∧ b.Reordered b' ∧
        r'.1.Alike e.rnd (e.clock m) b') (n.call c) (n'.call c) := by
      cases c with
      | process max st =>
        refine .bind (fun r r' => r.2 = r'.2 ∧ ∃ b b', r.1.Alike e.rnd (e.clock m) b ∧ b.Reordered b' ∧ r'.1.Alike e.rnd (e.clock m) b') ?_ ?_
        · refine (h1.process (hc.at e m) (hp.at e m) (e.at_frozen m) max st n).trans
            ((h2.process (hc.at e m) (hp.at e m) (e.at_frozen m) max st).trans
              (h3.process (hc.at e m) (hp.at e m) (e.at_frozen m) max st n').symm
              (T := fun a c => ∃ b : Node σ L × Outcome, (a.1.Reordered b.1 ∧ a.2 = b.2) ∧ c.2 = b.2 ∧ c.1.Alike e.rnd (e.clock m) b.1)
              (fun _ b _ h h' => ⟨b, h, h'⟩)) ?_
          rintro ⟨x, o⟩ ⟨y, _⟩ ⟨z, _⟩ ⟨rfl, hx⟩ ⟨⟨b, _⟩, ⟨hy, rfl⟩, ⟨rfl, hz⟩⟩
          exact ⟨rfl, _, _, hx, hy, hz⟩
        · rintro ⟨x, o⟩ ⟨y, _⟩ ⟨rfl, h⟩
          exact .pure ⟨.outcome o, h⟩
      | snapshot into d =>
        obtain rfl : d = false := hn _ List.mem_cons_self
        refine .bind (fun r r' => r.2.Reordered r'.2 ∧ r.1.Alike e.rnd (e.clock m) a ∧ r'.1.Alike e.rnd (e.clock m) a') ?_ ?_
        · refine (Node.Alike.put (hc.at e m) (hp.at e m) (e.at_frozen m) false n h1 into).trans
            ((h2.put (hc.at e m) (hp.at e m) ha hq (e.at_frozen m) into into).trans
              (Node.Alike.put (hc.at e m) (hp.at e m) (e.at_frozen m) false n' h3 into).symm
              (T := fun a c => a.2.Reordered c.2 ∧ c.1.Alike e.rnd (e.clock m) a')
              (fun _ b _ h h' => ⟨h'.1 ▸ h.reordered (.refl into), h'.2.2⟩)) ?_
          rintro ⟨x, o⟩ ⟨y, _⟩ ⟨z, s⟩ ⟨rfl, _, hx⟩ ⟨hy, hz⟩
          exact ⟨hy, hx, hz⟩
        · rintro ⟨x, o⟩ ⟨y, o'⟩ ⟨ho, hx, hy⟩
          exact .pure ⟨.snapshot ho, _, _, hx, h2, hy⟩
    have call := call 0 0
    unfold callsAt
    revert call
    cases n.call c (e.at m) 0 <;> cases n'.call c (e.at m) 0 <;> intro call
    · exact .none
    · cases call
    · cases call
    · rename_i r r'
      obtain ⟨⟨x, o⟩, k⟩ := r
      obtain ⟨⟨x', o'⟩, k'⟩ := r'
      cases call with
      | some call =>
        obtain ⟨hr, b, b', g1, g2, g3⟩ := call
        have ih := ih (e.clock m) hm g1 g2 g3
        show Option.Rel _ ((callsAt Node.call e x calls).bind fun q => some (q.1, (m, c, o) :: q.2))
          ((callsAt Node.call e x' calls).bind fun q => some (q.1, (m, c, o') :: q.2))
        revert ih
        cases callsAt Node.call e x calls <;> cases callsAt Node.call e x' calls <;> intro ih
        · exact .none
        · cases ih
        · cases ih
        · cases ih with
          | some ih => exact .some (.cons hr ih)

/-! ## Adding to mounts -/

theorem NodesReordered.last (x : Node σ L) : ∀ ns : List (Node σ L), NodesReordered (ns ++ [x]) (x :: ns)
  | [] => .refl _
  | n :: ns => (NodesReordered.cons (.refl n) (NodesReordered.last x ns)).trans (.swap (.refl _) (.refl _) (.refl _))

theorem NodesReordered.comm : ∀ ns ms : List (Node σ L), NodesReordered (ns ++ ms) (ms ++ ns)
  | [], ms => by rw [List.append_nil]; exact .refl ms
  | n :: ns, ms => by
    refine (NodesReordered.cons (.refl n) (NodesReordered.comm ns ms)).trans ?_
    rw [show ms ++ n :: ns = (ms ++ [n]) ++ ns by simp]
    exact (NodesReordered.last n ms).symm.append (.refl ns)

theorem SnapshootersReordered.comm (ss ts : List (Snapshooter σ L)) : SnapshootersReordered (ss ++ ts) (ts ++ ss) := by
  induction ss with
  | nil => rw [List.append_nil]; exact .refl ts
  | cons s ss ih =>
    refine (SnapshootersReordered.cons (.refl s) ih).trans ?_
    rw [show ts ++ s :: ss = (ts ++ [s]) ++ ss by simp]
    exact (SnapshootersReordered.last s ts).append (.refl ss)

theorem Node.adds (parts : List (MountPiece σ L)) : ∃ ks ts, ∀ (h : MountHead) (ns : List (Node σ L)) (ss : List (Snapshooter σ L)),
    parts.foldl Node.add (.mount h ns ss) = .mount h (ns ++ ks) (ss ++ ts) := by
  induction parts with
  | nil => exact ⟨[], [], fun h ns ss => by simp⟩
  | cons a parts ih =>
    obtain ⟨ks, ts, ih⟩ := ih
    cases a with
    | processor x => exact ⟨x :: ks, ts, fun h ns ss => by rw [List.foldl_cons]; show parts.foldl Node.add (.mount h (ns ++ [x]) ss) = _; rw [ih]; simp⟩
    | snapshooter x => exact ⟨ks, x :: ts, fun h ns ss => by rw [List.foldl_cons]; show parts.foldl Node.add (.mount h ns (ss ++ [x])) = _; rw [ih]; simp⟩

/-- The order in which processors and snapshooters are added does not matter. -/
theorem C102_order (h : MountHead) (ns : List (Node σ L)) (ss : List (Snapshooter σ L)) {parts parts' : List (MountPiece σ L)}
    (hp : parts.Perm parts') : (parts.foldl Node.add (.mount h ns ss)).Reordered (parts'.foldl Node.add (.mount h ns ss)) := by
  induction hp generalizing ns ss with
  | nil => exact .refl _
  | cons a _ ih =>
    cases a with
    | processor x => exact ih (ns ++ [x]) ss
    | snapshooter x => exact ih ns (ss ++ [x])
  | swap a b parts =>
    obtain ⟨ks, ts, hk⟩ := Node.adds parts
    have nodes : ∀ x y : Node σ L, NodesReordered (ns ++ [x] ++ [y] ++ ks) (ns ++ [y] ++ [x] ++ ks) := fun x y => by
      simp only [List.append_assoc]
      exact .prepend ns (.swap (.refl _) (.refl _) (.refl _))
    have snapshooters : ∀ x y : Snapshooter σ L, SnapshootersReordered (ss ++ [x] ++ [y] ++ ts) (ss ++ [y] ++ [x] ++ ts) := fun x y => by
      simp only [List.append_assoc]
      exact (SnapshootersReordered.refl ss).append (.swap (.refl _) (.refl _) (.refl _))
    cases a <;> cases b <;> simp only [List.foldl_cons, Node.add, Node.addProcessor, Node.addSnapshooter, hk]
    · exact .mount h (nodes _ _) (.refl _)
    · exact .refl _
    · exact .refl _
    · exact .mount h (.refl _) (snapshooters _ _)
  | trans _ _ ih1 ih2 => exact (ih1 ns ss).trans (ih2 ns ss)

/-- Parts in a mount that only groups them can be added directly. -/
theorem C102_grouped (h : MountHead) (ns : List (Node σ L)) (ss : List (Snapshooter σ L)) {g : MountHead} (hg : g.Plain)
    (parts : List (MountPiece σ L)) :
    (Node.add (.mount h ns ss) (.processor (parts.foldl Node.add (.mount g [] [])))).Reordered (parts.foldl Node.add (.mount h ns ss)) := by
  obtain ⟨ks, ts, hk⟩ := Node.adds parts
  rw [hk, hk, List.nil_append, List.nil_append]
  show Node.Reordered (.mount h (ns ++ [.mount g ks ts]) ss) _
  exact ((Node.Reordered.mount h (.last _ ns) (.refl ss)).trans (.ungroup hg (.refl ks) (.refl ns) (.refl ss) (.refl ts))).trans
    (.mount h (.comm ks ns) (.comm ts ss))

/-- What is in a part that is added may be arranged in another way, too. -/
theorem C102_inside (h : MountHead) (ns : List (Node σ L)) (ss : List (Snapshooter σ L)) {x x' : Node σ L} (hx : x.Reordered x') :
    (Node.add (.mount h ns ss) (.processor x)).Reordered (Node.add (.mount h ns ss) (.processor x')) :=
  .mount h (.prepend ns (.cons hx .nil)) (.refl ss)

section
variable [DecidableEq L] [Custom σ L] [CustomProcessor σ] (hc : CustomStill σ L) (hp : CustomProcessorStill σ)
  (ha : CustomFrames σ L) (hq : CustomProcessorFrames σ) {e : Env} (mono : e.Mono) {h : MountHead} {calls : List (Nat × NodeCall)}
  (ho : calls.Pairwise (·.1 ≤ ·.1)) (hn : ∀ c ∈ calls, c.2.Plain)
include hc hp ha hq mono ho hn

/-- Together: two mounts, to which the same was added in another order. -/
theorem C102_order_runs {parts parts' : List (MountPiece σ L)} (hw : parts.Perm parts')
    (hr : RingsOk (parts.foldl Node.add (.mount h [] [])).instruments) (hr' : RingsOk (parts'.foldl Node.add (.mount h [] [])).instruments)
    (hd : (parts.foldl Node.add (.mount h [] [])).NoDriver) (hd' : (parts'.foldl Node.add (.mount h [] [])).NoDriver) :
    Option.Rel (fun r r' => List.Forall₂ Reply.Reordered (r.2.map (·.2.2)) (r'.2.map (·.2.2)))
      (callsAt Node.call e (parts.foldl Node.add (.mount h [] [])) calls) (callsAt Node.call e (parts'.foldl Node.add (.mount h [] [])) calls) :=
  C102_mounts hc hp ha hq mono (C102_order h [] [] hw) hr hr' hd hd' ho hn

/-- Together: some parts are in a mount of their own, or not. -/
theorem C102_grouped_runs {g : MountHead} (hg : g.Plain) (parts before : List (MountPiece σ L))
    (hr : RingsOk (Node.add (before.foldl Node.add (.mount h [] [])) (.processor (parts.foldl Node.add (.mount g [] [])))).instruments)
    (hr' : RingsOk ((before ++ parts).foldl Node.add (.mount h [] [])).instruments)
    (hd : (Node.add (before.foldl Node.add (.mount h [] [])) (.processor (parts.foldl Node.add (.mount g [] [])))).NoDriver)
    (hd' : ((before ++ parts).foldl Node.add (.mount h [] [])).NoDriver) :
    Option.Rel (fun r r' => List.Forall₂ Reply.Reordered (r.2.map (·.2.2)) (r'.2.map (·.2.2)))
      (callsAt Node.call e (Node.add (before.foldl Node.add (.mount h [] [])) (.processor (parts.foldl Node.add (.mount g [] [])))) calls)
      (callsAt Node.call e ((before ++ parts).foldl Node.add (.mount h [] [])) calls) := by
  refine C102_mounts hc hp ha hq mono ?_ hr hr' hd hd' ho hn
  obtain ⟨ks, ts, hk⟩ := Node.adds before
  rw [List.foldl_append, hk]
  exact C102_grouped h _ _ hg parts
end

/-- A mount made by `default` only groups its parts. -/
theorem C102_default (e : Env) (k : Nat) : ∃ g k', MountHead.default e k = some (g, k') ∧ g.Plain :=
  ⟨{ lastActivity := e.clock k }, k + 1, rfl, ⟨rfl, rfl⟩⟩

/-! ## Example: two processors and a constant, in two arrangements -/

/-- Counts two observations. -/
def arrangedProcessor (name : String) : Node Empty Nat :=
  .processor { state := { name := some name, activity := ⟨0, none, true⟩, handlers := [.instrument (.new (.counter { name := "n" }))] }
               receiver := { chan := { Channel.fresh (some 10) true [{ todo := [] }] with
                 queue := [(0, .observation (.observedOne 1 0)), (0, .observation (.observedOne 1 0))] } } }

def arrangedParts : List (MountPiece Empty Nat) :=
  [.processor (arrangedProcessor "a"), .snapshooter (.constant "c" {} (.uint 1)), .processor (arrangedProcessor "b")]

def arrangedHead : MountHead := { name := some "m", lastActivity := 0 }

/-- `b` first. -/
def arrangedOtherwise : List (MountPiece Empty Nat) :=
  [.processor (arrangedProcessor "b"), .processor (arrangedProcessor "a"), .snapshooter (.constant "c" {} (.uint 1))]

def arrangedCalls : List (Nat × NodeCall) := [(1, .process 1 .processAll), (3, .snapshot [] false), (5, .process 3 .processAll), (5, .snapshot [] false)]

theorem arranged_calls : arrangedCalls.Pairwise (·.1 ≤ ·.1) ∧ ∀ c ∈ arrangedCalls, c.2.Plain := by
  simp [arrangedCalls, NodeCall.Plain]

example : Option.Rel (fun r r' => List.Forall₂ Reply.Reordered (r.2.map (·.2.2)) (r'.2.map (·.2.2)))
    (callsAt Node.call ticking (arrangedParts.foldl Node.add (.mount arrangedHead [] [])) arrangedCalls)
    (callsAt Node.call ticking (arrangedOtherwise.foldl Node.add (.mount arrangedHead [] [])) arrangedCalls) :=
  C102_order_runs emptyStill emptyProcessorStill emptyFrames (fun s => s.elim) ticking_mono arranged_calls.1 arranged_calls.2
    ((List.Perm.cons _ (.swap _ _ _)).trans (.swap _ _ _))
    (by rw [show (arrangedParts.foldl Node.add (.mount arrangedHead [] [])).instruments = [.counter { name := "n" }, .counter { name := "n" }] from rfl]
        exact roomy_rings (by simp))
    (by rw [show (arrangedOtherwise.foldl Node.add (.mount arrangedHead [] [])).instruments = [.counter { name := "n" }, .counter { name := "n" }] from rfl]
        exact roomy_rings (by simp))
    ⟨trivial, trivial, trivial⟩ ⟨trivial, trivial, trivial⟩

/-- The number of processed messages, or the numbers shown at `path`. -/
def Reply.numbers (path : List String) : Reply → List Nat
  | .outcome o => [o.processed]
  | .snapshot s => (Snapshot.values [] s).filterMap fun v => match v.2 with
    | .uint n => if v.1 = path then some n else none
    | _ => none
  | .nothing => []

/-- This is what they do. -/
example : ∀ path ∈ [["m", "a", "n"], ["m", "b", "n"]],
    (callsAt Node.call ticking (arrangedParts.foldl Node.add (.mount arrangedHead [] [])) arrangedCalls).map (fun r => r.2.map (·.2.2.numbers path)) =
      some [[2], [1], [2], [2]] ∧
    (callsAt Node.call ticking (arrangedOtherwise.foldl Node.add (.mount arrangedHead [] [])) arrangedCalls).map (fun r => r.2.map (·.2.2.numbers path)) =
      some [[2], [1], [2], [2]] := by
  decide +kernel

/-- With a mount of its own for `a`, or without. -/
example : Option.Rel (fun r r' => List.Forall₂ Reply.Reordered (r.2.map (·.2.2)) (r'.2.map (·.2.2)))
    (callsAt Node.call ticking (Node.add (.mount arrangedHead [arrangedProcessor "b"] [])
      (.processor (Node.add (.mount { lastActivity := 0 } [] []) (.processor (arrangedProcessor "a"))))) arrangedCalls)
    (callsAt Node.call ticking (.mount arrangedHead [arrangedProcessor "b", arrangedProcessor "a"] []) arrangedCalls) :=
  C102_grouped_runs (h := arrangedHead) emptyStill emptyProcessorStill emptyFrames (fun s => s.elim) ticking_mono arranged_calls.1 arranged_calls.2
    (g := { lastActivity := 0 }) ⟨rfl, rfl⟩ [.processor (arrangedProcessor "a")] [.processor (arrangedProcessor "b")]
    (by exact roomy_rings (is := [.counter { name := "n" }, .counter { name := "n" }]) (by simp))
    (by exact roomy_rings (is := [.counter { name := "n" }, .counter { name := "n" }]) (by simp))
    ⟨trivial, ⟨trivial, trivial⟩, trivial⟩ ⟨trivial, trivial, trivial⟩

/-- A mount with a name is not only a group: its processors are shown elsewhere. -/
example : (callsAt Node.call ticking (.mount arrangedHead [.mount { name := some "x", lastActivity := 0 } [arrangedProcessor "a"] []] []) arrangedCalls).map
      (fun r => r.2.map (·.2.2.numbers ["m", "a", "n"])) = some [[1], [], [1], []] := by
  decide +kernel

/-- The processors themselves may be arranged in another way: here with a group in one of them. -/
example (s : ProcessorState Empty Nat) (r : Receiver (Message Empty Nat)) :
    (Node.add (.mount arrangedHead [] [])
      (.processor (.processor ⟨s.addHandler (.panel (organisedParts.foldl Panel.with_ (.mk organisingHead [] [] []))), r, false⟩))).Reordered
    (Node.add (.mount arrangedHead [] [])
      (.processor (.processor ⟨(organisedParts.filterMap (·.asHandler)).foldl ProcessorState.addHandler s, r, false⟩))) :=
  C102_inside arrangedHead [] [] (.processor ⟨rfl, rfl, C101_in_processor _ organising_plain rfl organised_handlers⟩)

example := C102_default ticking 3

end Metrix
