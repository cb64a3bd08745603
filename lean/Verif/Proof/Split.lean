import Verif.Spec.Split
import Verif.Proof.Batch
import Verif.Proof.ReorderProcessor
import Verif.Proof.Arranged

/-! The parts of one processor, distributed to several. -/

namespace Metrix
variable {σ L : Type} {e : Env} {t : Int}

/-! ## Observations -/

/-- Several lists after each other: as each of them alone. -/
theorem gathered {T X : Type} {f : List T → M (List T × Nat)} {R : List T → List T → Prop} (hnil : f [] = pure ([], 0))
    (happ : ∀ a b, f (a ++ b) = f a >>= fun x => f b >>= fun y => pure (x.1 ++ y.1, x.2 + y.2))
    (hsync : ∀ a, M.Sync e (fun r r' => R r.1 r'.1 ∧ r.2 = r'.2) (f a) (f a)) (rnil : R [] [])
    (rapp : ∀ {a a' b b'}, R a a' → R b b' → R (a ++ b) (a' ++ b')) (p q : X → List T) (n : X → Nat) :
    ∀ xs : List X, (∀ x ∈ xs, ∃ k k', f (p x) e k = some ((q x, n x), k')) →
      ∀ k, ∃ A k', f (xs.flatMap p) e k = some ((A, (xs.map n).sum), k') ∧ R A (xs.flatMap q) := by
  intro xs
  induction xs with
  | nil => exact fun _ k => ⟨[], k, by rw [List.flatMap_nil, hnil]; rfl, rnil⟩
  | cons x xs ih =>
    intro h k
    obtain ⟨j, j', h1⟩ := h x List.mem_cons_self
    obtain ⟨⟨a, m⟩, k₁, h2, h3, h4⟩ := (hsync (p x)).some (k' := k) h1
    obtain ⟨b, k₂, h5, h6⟩ := ih (fun y hy => h y (List.mem_cons_of_mem _ hy)) k₁
    have hs : M.Sync e (fun r r' => R r'.1 r.1 ∧ r.2 = r'.2) (f (p x)) (f (p x)) := by
      intro k k'
      have := hsync (p x) k' k
      revert this
      cases f (p x) e k <;> cases f (p x) e k' <;> intro this
      · exact .none
      · cases this
      · cases this
      · cases this with
        | some h => exact .some ⟨h.1, h.2.symm⟩
    obtain ⟨r, k₃, h7, h8, _⟩ := hs.some (k' := k) h1
    rw [h2] at h7
    cases h7
    dsimp only at h4
    subst h4
    refine ⟨a ++ b, k₂, ?_, ?_⟩
    · rw [List.flatMap_cons, happ, M.run_bind_some h2, M.run_bind_some h5]
      rfl
    · rw [List.flatMap_cons]
      exact rapp h8 h6

section
variable [DecidableEq L] [Custom σ L]

theorem handleCockpits_append (o : Observation L) (ps qs : List (Cockpit σ L)) :
    handleCockpits o (ps ++ qs) = handleCockpits o ps >>= fun a => handleCockpits o qs >>= fun b => pure (a.1 ++ b.1, a.2 + b.2) := by
  simp only [handleCockpits_eq, handleAll_append]

/-- The processor with the parts of all shows an observation to each of them. -/
theorem gather_handle (hc : StillAt σ L e) (hf : Frozen e t) (o : Observation L) (s : ProcessorState σ L) {X : Type}
    (p q : X → ProcessorState σ L) (n : X → Nat) (xs : List X)
    (h : ∀ x ∈ xs, ∃ k k', (p x).handleAll o e k = some ((q x, n x), k')) (k : Nat) :
    ∃ r k', (s.gather (xs.map p)).handleAll o e k = some ((r, (xs.map n).sum), k') ∧ r.Reordered (s.gather (xs.map q)) := by
  have split : ∀ x ∈ xs, ∃ a b, a + b = n x ∧ (∃ k k', handleCockpits o (p x).cockpits e k = some (((q x).cockpits, a), k')) ∧
      (∃ k k', handleHandlers o (p x).handlers e k = some (((q x).handlers, b), k')) ∧ (q x).snapshooters = (p x).snapshooters := by
    intro x hx
    obtain ⟨k, k', h1⟩ := h x hx
    obtain ⟨⟨a, na⟩, k₁, h2, h1⟩ := M.bind_eq_some.1 h1
    obtain ⟨⟨b, nb⟩, k₂, h3, h1⟩ := M.bind_eq_some.1 h1
    have h4 : (({ p x with cockpits := a, handlers := b } : ProcessorState σ L), na + nb) = (q x, n x) := congrArg Prod.fst (Option.some.inj h1)
    obtain ⟨h5, h6⟩ := Prod.mk.inj h4
    refine ⟨na, nb, h6, ?_, ?_, ?_⟩
    · exact ⟨k, k₁, by rw [h2, ← h5]⟩
    · exact ⟨k₁, k₂, by rw [h3, ← h5]⟩
    · rw [← h5]
  classical
  let a : X → Nat := fun x => if hx : x ∈ xs then (split x hx).choose else 0
  let b : X → Nat := fun x => if hx : x ∈ xs then (split x hx).choose_spec.choose else 0
  have key : ∀ x ∈ xs, a x + b x = n x ∧ (∃ k k', handleCockpits o (p x).cockpits e k = some (((q x).cockpits, a x), k')) ∧
      (∃ k k', handleHandlers o (p x).handlers e k = some (((q x).handlers, b x), k')) ∧ (q x).snapshooters = (p x).snapshooters := by
    intro x hx
    simp only [a, b, dif_pos hx]
    exact (split x hx).choose_spec.choose_spec
  obtain ⟨A, k₁, h1, h2⟩ := gathered (f := handleCockpits o) (R := CockpitsReordered) rfl (handleCockpits_append o)
    (fun cs => (CockpitsReordered.refl cs).handle hc hf o) .nil (fun h h' => h.append h') (fun x => (p x).cockpits) (fun x => (q x).cockpits) a xs
    (fun x hx => (key x hx).2.1) k
  obtain ⟨B, k₂, h3, h4⟩ := gathered (f := handleHandlers o) (R := HandlersReordered) (by rw [handleHandlers]) (handleHandlers_append o)
    (fun cs => (HandlersReordered.refl cs).handle hc hf o) .nil (fun h h' => h.append h') (fun x => (p x).handlers) (fun x => (q x).handlers) b xs
    (fun x hx => (key x hx).2.2.1) k₁
  have hsum : (xs.map a).sum + (xs.map b).sum = (xs.map n).sum := by
    have : ∀ ys : List X, (∀ y ∈ ys, a y + b y = n y) → (ys.map a).sum + (ys.map b).sum = (ys.map n).sum := by
      intro ys
      induction ys with
      | nil => intro _; rfl
      | cons y ys ih =>
        intro h
        have h1 := ih fun z hz => h z (List.mem_cons_of_mem _ hz)
        have h2 := h y List.mem_cons_self
        simp only [List.map_cons, List.sum_cons]
        omega
    exact this xs fun y hy => (key y hy).1
  have hss : xs.flatMap (fun x => (p x).snapshooters) = xs.flatMap (fun x => (q x).snapshooters) := by
    have : ∀ ys : List X, (∀ y ∈ ys, (q y).snapshooters = (p y).snapshooters) →
        ys.flatMap (fun x => (p x).snapshooters) = ys.flatMap (fun x => (q x).snapshooters) := by
      intro ys
      induction ys with
      | nil => intro _; rfl
      | cons y ys ih =>
        intro h
        rw [List.flatMap_cons, List.flatMap_cons, ih fun z hz => h z (List.mem_cons_of_mem _ hz), h y List.mem_cons_self]
    exact this xs fun y hy => (key y hy).2.2.2
  refine ⟨{ s with cockpits := A, handlers := B, snapshooters := xs.flatMap fun x => (p x).snapshooters }, k₂, ?_, ?_⟩
  · unfold ProcessorState.handleAll ProcessorState.gather
    simp only [List.flatMap_map]
    rw [M.run_bind_some h1, M.run_bind_some h3]
    show some (_, _) = _
    rw [hsum]
  · refine ⟨rfl, rfl, rfl, ?_, ?_, ?_⟩
    · show CockpitsReordered A ((xs.map q).flatMap (·.cockpits))
      rw [List.flatMap_map]; exact h2
    · show HandlersReordered B ((xs.map q).flatMap (·.handlers))
      rw [List.flatMap_map]; exact h4
    · show SnapshootersReordered _ ((xs.map q).flatMap (·.snapshooters))
      rw [List.flatMap_map, hss]; exact .refl _

/-- What one message does to all. -/
theorem gather_play (hc : CustomStill σ L) {e : Env} {m : Nat} {strategy : Strategy} {o : Observation L} {s x y : ProcessorState σ L} {U V : Tally}
    {X : Type} {p q : X → ProcessorState σ L} {u v : X → Tally} {xs : List X} (hx : x.Reordered (s.gather (xs.map p)))
    (h : (Happening.message m strategy (.observation o)).play e (x, U) = some (y, V))
    (hp : ∀ a ∈ xs, (Happening.message m strategy (.observation o)).play e (p a, u a) = some (q a, v a)) :
    y.Reordered ((s.activeAt (e.clock m)).gather (xs.map q)) ∧
      (∀ a ∈ xs, V.processed + (u a).processed = U.processed + (v a).processed ∧ V.dropped + (u a).dropped = U.dropped + (v a).dropped) ∧
      V.updated + (xs.map fun a => (u a).updated).sum = U.updated + (xs.map fun a => (v a).updated).sum := by
  have h1 := Happening.play_reordered hc hx U m strategy (.refl (.observation o)) (e := e)
  rw [h] at h1
  cases hd : strategy.decider (e.at m) 0 with
  | none =>
    unfold Happening.play at h
    dsimp only at h
    rw [M.run_bind, hd] at h
    cases h
  | some d =>
    obtain ⟨dec, k⟩ := d
    rw [play_handleAll hd] at h1
    simp only [play_handleAll hd] at hp
    by_cases hk : dec.shouldBeProcessed o = true
    · simp only [if_pos hk] at h1 hp
      let q₀ : X → ProcessorState σ L := fun a => (((p a).handleAll o (e.at m) k).map (·.1.1)).getD (p a)
      let n : X → Nat := fun a => (((p a).handleAll o (e.at m) k).map (·.1.2)).getD 0
      have key : ∀ a ∈ xs, (∃ k', (p a).handleAll o (e.at m) k = some ((q₀ a, n a), k')) ∧ q a = (q₀ a).activeAt (e.clock m) ∧
          v a = { u a with processed := (u a).processed + 1, updated := (u a).updated + n a } := by
        intro a ha
        have h2 := hp a ha
        simp only [q₀, n]
        revert h2
        cases (p a).handleAll o (e.at m) k with
        | none => intro h2; cases h2
        | some r =>
          intro h2
          obtain ⟨h3, h4⟩ := Prod.mk.inj (Option.some.inj h2)
          exact ⟨⟨r.2, rfl⟩, h3.symm, h4.symm⟩
      obtain ⟨r, k', h2, h3⟩ := gather_handle (hc.at e m) (e.at_frozen m) o s p q₀ n xs (fun a ha => ⟨k, (key a ha).1⟩) k
      rw [h2] at h1
      cases h1 with
      | some h1 =>
        obtain ⟨h4, rfl⟩ := h1
        have hq : (s.activeAt (e.clock m)).gather (xs.map q) = (s.gather (xs.map q₀)).activeAt (e.clock m) := by
          have : ∀ ys : List X, (∀ a ∈ ys, q a = (q₀ a).activeAt (e.clock m)) →
              (s.activeAt (e.clock m)).gather (ys.map q) = (s.gather (ys.map q₀)).activeAt (e.clock m) := by
            intro ys h5
            have : ys.map q = ys.map fun a => (q₀ a).activeAt (e.clock m) := List.map_congr_left h5
            rw [this]
            simp only [ProcessorState.gather, ProcessorState.activeAt, List.flatMap_map]
          exact this xs fun a ha => (key a ha).2.1
        refine ⟨?_, ?_, ?_⟩
        · rw [hq]
          exact h4.trans (h3.activeAt _)
        · intro a ha
          rw [(key a ha).2.2]
          refine ⟨?_, ?_⟩
          · show U.processed + 1 + (u a).processed = U.processed + ((u a).processed + 1)
            omega
          · rfl
        · show U.updated + (xs.map n).sum + _ = _
          have : ∀ ys : List X, (∀ a ∈ ys, v a = { u a with processed := (u a).processed + 1, updated := (u a).updated + n a }) →
              (ys.map n).sum + (ys.map fun a => (u a).updated).sum = (ys.map fun a => (v a).updated).sum := by
            intro ys
            induction ys with
            | nil => intro _; rfl
            | cons a ys ih =>
              intro h5
              have h6 := ih fun z hz => h5 z (List.mem_cons_of_mem _ hz)
              have h7 : (v a).updated = (u a).updated + n a := by rw [h5 a List.mem_cons_self]
              simp only [List.map_cons, List.sum_cons]
              omega
          have := this xs fun a ha => (key a ha).2.2
          omega
    · simp only [if_neg hk] at h1 hp
      cases h1 with
      | some h1 =>
        obtain ⟨h4, rfl⟩ := h1
        have key : ∀ a ∈ xs, q a = (p a).activeAt (e.clock m) ∧ v a = { u a with dropped := (u a).dropped + 1 } := by
          intro a ha
          obtain ⟨h3, h4⟩ := Prod.mk.inj (Option.some.inj (hp a ha))
          exact ⟨h3.symm, h4.symm⟩
        have hq : xs.map q = xs.map fun a => (p a).activeAt (e.clock m) := List.map_congr_left fun a ha => (key a ha).1
        have hv : (xs.map fun a => (v a).updated) = xs.map fun a => (u a).updated := List.map_congr_left fun a ha => by rw [(key a ha).2]
        refine ⟨?_, ?_, ?_⟩
        · rw [hq]
          refine h4.trans ?_
          simp only [ProcessorState.gather, ProcessorState.activeAt, List.flatMap_map]
          exact .refl _
        · intro a ha
          rw [(key a ha).2]
          refine ⟨rfl, ?_⟩
          show U.dropped + 1 + (u a).dropped = U.dropped + ((u a).dropped + 1)
          omega
        · rw [hv]

/-- What many messages do to all. -/
theorem gather_plays (hc : CustomStill σ L) {e : Env} {X : Type} {q : X → ProcessorState σ L} {v : X → Tally} {xs : List X}
    {y : ProcessorState σ L} {V : Tally} : ∀ (hs : List (Happening σ L)), (∀ a ∈ hs, a.Observes) →
    ∀ {s x : ProcessorState σ L} {U : Tally} {p : X → ProcessorState σ L} {u : X → Tally}, x.Reordered (s.gather (xs.map p)) →
    hs.foldlM (Happening.play e) (x, U) = some (y, V) →
    (∀ a ∈ xs, hs.foldlM (Happening.play e) (p a, u a) = some (q a, v a)) →
    ∃ s' : ProcessorState σ L, s'.name = s.name ∧ s'.activity.maxInactivity = s.activity.maxInactivity ∧ y.Reordered (s'.gather (xs.map q)) ∧
      (∀ a ∈ xs, V.processed + (u a).processed = U.processed + (v a).processed ∧ V.dropped + (u a).dropped = U.dropped + (v a).dropped) ∧
      V.updated + (xs.map fun a => (u a).updated).sum = U.updated + (xs.map fun a => (v a).updated).sum := by
  intro hs
  induction hs with
  | nil =>
    intro _ s x U p u hx h hp
    cases h
    have key : ∀ a ∈ xs, p a = q a ∧ u a = v a := fun a ha => Prod.mk.inj (Option.some.inj (hp a ha))
    have h1 : xs.map p = xs.map q := List.map_congr_left fun a ha => (key a ha).1
    have h2 : (xs.map fun a => (u a).updated) = xs.map fun a => (v a).updated := List.map_congr_left fun a ha => by rw [(key a ha).2]
    exact ⟨s, rfl, rfl, h1 ▸ hx, fun a ha => by rw [(key a ha).2]; exact ⟨rfl, rfl⟩, by rw [h2]⟩
  | cons b hs ih =>
    intro ho s x U p u hx h hp
    have hb := ho b List.mem_cons_self
    match b, hb with
    | .message m strategy (.observation o), _ =>
      rw [List.foldlM_cons] at h
      obtain ⟨⟨x₁, U₁⟩, h1, h2⟩ := Option.bind_eq_some_iff.1 h
      let r : X → ProcessorState σ L × Tally := fun a => ((Happening.message m strategy (.observation o)).play e (p a, u a)).getD (p a, u a)
      have key : ∀ a ∈ xs, (Happening.message m strategy (.observation o)).play e (p a, u a) = some ((r a).1, (r a).2) ∧
          hs.foldlM (Happening.play e) ((r a).1, (r a).2) = some (q a, v a) := by
        intro a ha
        have h3 := hp a ha
        rw [List.foldlM_cons] at h3
        obtain ⟨z, h4, h5⟩ := Option.bind_eq_some_iff.1 h3
        simp only [r, h4, Option.getD_some]
        exact ⟨trivial, h5⟩
      obtain ⟨h3, h4, h5⟩ := gather_play hc hx h1 fun a ha => (key a ha).1
      obtain ⟨s', h6, h7, h8, h9, h10⟩ := ih (fun a ha => ho a (List.mem_cons_of_mem _ ha)) h3 h2 fun a ha => (key a ha).2
      refine ⟨s', h6, h7, h8, ?_, ?_⟩
      · intro a ha
        have := h4 a ha
        have := h9 a ha
        omega
      · omega

theorem plays_plain (hc : CustomStill σ L) {e : Env} {hs : List (Happening σ L)} (ho : ∀ a ∈ hs, a.Observes) {s y : ProcessorState σ L} {U V : Tally}
    (h : hs.foldlM (Happening.play e) (s, U) = some (y, V)) (hp : s.Plain) : y.Plain := by
  have h1 : s.Reordered (s.gather ([()].map fun _ => s)) := by
    simp only [ProcessorState.gather, List.map_cons, List.map_nil, List.flatMap_cons, List.flatMap_nil, List.append_nil]
    exact .refl _
  obtain ⟨s', h2, h3, h4, _⟩ := gather_plays hc hs ho (u := fun _ => U) (v := fun _ => V) (q := fun _ => y) h1 h fun _ _ => h
  exact ⟨h4.name.trans (h2.trans hp.name), (congrArg Activity.maxInactivity h4.activity).trans (h3.trans hp.limit)⟩

/-! ## Snapshots -/

/-- Both show something, in different orders, or nothing. -/
abbrev ShowsAs (a b : Option Snapshot) : Prop := Option.Rel Snapshot.Reordered a b

omit [DecidableEq L] [Custom σ L] in
theorem ShowsAs.refl : ∀ a : Option Snapshot, ShowsAs a a
  | none => .none
  | some a => .some (.refl a)

theorem ShowsAs.symm : ∀ {a b : Option Snapshot}, ShowsAs a b → ShowsAs b a
  | _, _, .none => .none
  | _, _, .some h => .some h.symm

theorem ShowsAs.trans : ∀ {a b c : Option Snapshot}, ShowsAs a b → ShowsAs b c → ShowsAs a c
  | _, _, _, .none, .none => .none
  | _, _, _, .some h, .some h' => .some (h.trans h')

/-- One after the other. -/
def twoOf : Option Snapshot → Option Snapshot → Option Snapshot
  | some a, some b => some (a ++ b)
  | _, _ => none

theorem twoOf_congr : ∀ {a a' b b' : Option Snapshot}, ShowsAs a a' → ShowsAs b b' → ShowsAs (twoOf a b) (twoOf a' b')
  | _, _, _, _, .none, .none => .none
  | _, _, _, _, .none, .some _ => .none
  | _, _, _, _, .some _, .none => .none
  | _, _, _, _, .some h, .some h' => .some (h.append h')

theorem twoOf_four (a b c d : Option Snapshot) : ShowsAs (twoOf (twoOf a b) (twoOf c d)) (twoOf (twoOf a c) (twoOf b d)) := by
  cases a <;> cases b <;> cases c <;> cases d
  case some.some.some.some a b c d =>
    refine .some ?_
    rw [List.append_assoc, List.append_assoc]
    refine .prepend ?_ a
    rw [← List.append_assoc, ← List.append_assoc]
    exact .append (.comm b c) (.refl d)
  all_goals exact .none

/-- All after each other. -/
def allOf : List (Option Snapshot) → Option Snapshot
  | [] => some []
  | a :: as => twoOf a (allOf as)

theorem allOf_twoOf {X : Type} (c h s : X → Option Snapshot) : ∀ xs : List X,
    ShowsAs (allOf (xs.map fun x => twoOf (c x) (twoOf (h x) (s x)))) (twoOf (allOf (xs.map c)) (twoOf (allOf (xs.map h)) (allOf (xs.map s))))
  | [] => .some .nil
  | x :: xs =>
    (twoOf_congr (.refl _) (allOf_twoOf c h s xs)).trans ((twoOf_four _ _ _ _).trans (twoOf_congr (.refl _) (twoOf_four _ _ _ _)))

/-- To whatever is there, this is added. -/
def Gives {C : Type} (e : Env) (f : Snapshot → M (C × Snapshot)) (o : Option Snapshot) : Prop :=
  ∀ s k, ShowsAs ((f s e k).map (·.1.2)) (o.map (s ++ ·))

theorem gives_of {C : Type} {f : Snapshot → M (C × Snapshot)} (h : ∀ s s', PutsReordered e s s' (f s) (f s')) :
    Gives e f ((f [] e 0).map (·.1.2)) := by
  intro s k
  have := h s [] k 0
  revert this
  cases f s e k <;> cases f [] e 0 <;> intro this
  · exact .none
  · cases this
  · cases this
  · cases this with
    | some h =>
      obtain ⟨a, a', h1, h2, h3⟩ := h
      refine .some ?_
      dsimp only
      rw [h1, h2]
      exact h3.prepend s

theorem Gives.nothing {C : Type} (c : C) : Gives e (fun s => pure (c, s)) (some []) :=
  fun s k => by
    refine .some ?_
    dsimp only
    rw [List.append_nil]
    exact .refl s

theorem Gives.andThen {C D : Type} {f : Snapshot → M (C × Snapshot)} {g : C → Snapshot → M (D × Snapshot)} {a b : Option Snapshot}
    (hf : Gives e f a) (hg : ∀ c, Gives e (g c) b) : Gives e (fun s => f s >>= fun r => g r.1 r.2) (twoOf a b) := by
  intro s k
  dsimp only
  have h1 := hf s k
  cases h2 : f s e k with
  | none =>
    rw [h2] at h1
    rw [M.run_bind_none h2]
    cases a with
    | none => exact .none
    | some a => cases h1
  | some r =>
    rw [h2] at h1
    rw [M.run_bind_some h2]
    cases a with
    | none => cases h1
    | some a =>
      cases h1 with
      | some h1 =>
        refine ShowsAs.trans (hg r.1.1 r.1.2 r.2) ?_
        cases b with
        | none => exact .none
        | some b =>
          refine .some ?_
          dsimp only
          rw [← List.append_assoc]
          exact .append h1 (.refl b)

theorem Gives.map {C D : Type} {f : Snapshot → M (C × Snapshot)} {a : Option Snapshot} (hf : Gives e f a) (g : C → D) :
    Gives e (fun s => f s >>= fun r => pure (g r.1, r.2)) a := by
  have := hf.andThen (g := fun c s => pure (g c, s)) (fun c => .nothing (g c))
  have h : ∀ a : Option Snapshot, twoOf a (some []) = a := by
    intro a
    cases a with
    | none => rfl
    | some a => exact congrArg some (List.append_nil a)
  rw [h] at this
  exact this

/-- Several lists after each other. -/
theorem gives_flatMap {T X : Type} {f : List T → Snapshot → M (List T × Snapshot)} (hnil : ∀ s, f [] s = pure ([], s))
    (happ : ∀ a b s, f (a ++ b) s = f a s >>= fun x => f b x.2 >>= fun y => pure (x.1 ++ y.1, y.2)) (p : X → List T)
    (o : X → Option Snapshot) : ∀ xs : List X, (∀ x ∈ xs, Gives e (f (p x)) (o x)) →
    Gives e (f (xs.flatMap p)) (allOf (xs.map o))
  | [], _ => by
    have : f (([] : List X).flatMap p) = fun s => pure ([], s) := funext hnil
    rw [this]
    exact .nothing _
  | x :: xs, h => by
    have : f ((x :: xs).flatMap p) = fun s => f (p x) s >>= fun a => f (xs.flatMap p) a.2 >>= fun b => pure (a.1 ++ b.1, b.2) :=
      funext fun s => happ _ _ s
    rw [this]
    exact (h x List.mem_cons_self).andThen (g := fun a s => f (xs.flatMap p) s >>= fun b => pure (a ++ b.1, b.2))
      fun c => (gives_flatMap hnil happ p o xs fun y hy => h y (List.mem_cons_of_mem _ hy)).map _

section
variable (hc : StillAt σ L e) (ha : CustomFrames σ L) (hf : Frozen e t)
include hc ha hf

/-- What the parts of all show. -/
theorem gives_gathered (s : ProcessorState σ L) {X : Type} (y : X → ProcessorState σ L) (xs : List X) : ∃ a b c : X → Option Snapshot,
    (∀ x, Gives e (putCockpits false (y x).cockpits) (a x) ∧ Gives e (putHandlers false (y x).handlers) (b x) ∧
      Gives e (putSnapshooters false (y x).snapshooters) (c x)) ∧
    Gives e (putCockpits false (s.gather (xs.map y)).cockpits) (allOf (xs.map a)) ∧
    Gives e (putHandlers false (s.gather (xs.map y)).handlers) (allOf (xs.map b)) ∧
    Gives e (putSnapshooters false (s.gather (xs.map y)).snapshooters) (allOf (xs.map c)) := by
  have h1 : ∀ x, Gives e (putCockpits false (y x).cockpits) _ := fun x => gives_of ((CockpitsReordered.refl (y x).cockpits).put hc ha hf)
  have h2 : ∀ x, Gives e (putHandlers false (y x).handlers) _ := fun x => gives_of ((HandlersReordered.refl (y x).handlers).put hc ha hf)
  have h3 : ∀ x, Gives e (putSnapshooters false (y x).snapshooters) _ :=
    fun x => gives_of ((SnapshootersReordered.refl (y x).snapshooters).put hc ha hf)
  refine ⟨_, _, _, fun x => ⟨h1 x, h2 x, h3 x⟩, ?_, ?_, ?_⟩
  · simp only [ProcessorState.gather, List.flatMap_map]
    exact gives_flatMap (fun s => by rw [putCockpits]) (fun a b s => by simp only [putCockpits_eq, putAll_append]) _ _ xs fun x _ => h1 x
  · simp only [ProcessorState.gather, List.flatMap_map]
    exact gives_flatMap (fun s => by rw [putHandlers]) (putHandlers_append false) _ _ xs fun x _ => h2 x
  · simp only [ProcessorState.gather, List.flatMap_map]
    exact gives_flatMap (fun s => by rw [putSnapshooters]) (putSnapshooters_append false) _ _ xs fun x _ => h3 x

end

/-- The parts of a processor, at its level. -/
def ProcessorState.putParts (s : ProcessorState σ L) (level : Snapshot) : M (ProcessorState σ L × Snapshot) :=
  putCockpits false s.cockpits level >>= fun r => putHandlers false s.handlers r.2 >>= fun r' =>
    putSnapshooters false s.snapshooters r'.2 >>= fun r'' => pure ({ s with cockpits := r.1, handlers := r'.1, snapshooters := r''.1 }, r''.2)

theorem put_unlimited {s : ProcessorState σ L} (h : s.activity.maxInactivity = none) (into : Snapshot) :
    s.putSnapshot into false = s.putParts (levelFor s.name into) >>= fun r => pure (r.1, closeLevel s.name into r.2) := by
  unfold ProcessorState.putSnapshot ProcessorState.putParts
  simp only [putDefaultDescriptives, Bool.false_eq_true, if_false, putFlags_unlimited h, pure_bind, if_true, bind_assoc]

theorem gives_putParts {s : ProcessorState σ L} {a b c : Option Snapshot} (ha : Gives e (putCockpits false s.cockpits) a)
    (hb : Gives e (putHandlers false s.handlers) b) (hc : Gives e (putSnapshooters false s.snapshooters) c) :
    Gives e s.putParts (twoOf a (twoOf b c)) := by
  exact ha.andThen (D := ProcessorState σ L) (g := fun x l => putHandlers false s.handlers l >>= fun r' =>
      putSnapshooters false s.snapshooters r'.2 >>= fun r'' => pure (({ s with cockpits := x, handlers := r'.1, snapshooters := r''.1 } : ProcessorState σ L), r''.2))
    fun x => hb.andThen (D := ProcessorState σ L) (g := fun y l => putSnapshooters false s.snapshooters l >>= fun r'' =>
      pure (({ s with cockpits := x, handlers := y, snapshooters := r''.1 } : ProcessorState σ L), r''.2)) fun y => hc.map (D := ProcessorState σ L) fun u => { s with cockpits := x, handlers := y, snapshooters := u }

omit [DecidableEq L] [Custom σ L] in
theorem Gives.close {C D C' D' : Type} {f : Snapshot → M (C × Snapshot)} {g : Snapshot → M (D × Snapshot)} {a b : Option Snapshot}
    (hf : Gives e f a) (hg : Gives e g b) (hab : ShowsAs a b) (n : Option String) (into : Snapshot) (F : C → C') (G : D → D') (k k' : Nat) :
    ShowsAs (((f (levelFor n into) >>= fun r => pure (F r.1, closeLevel n into r.2)) e k).map (·.1.2))
      (((g (levelFor n into) >>= fun r => pure (G r.1, closeLevel n into r.2)) e k').map (·.1.2)) := by
  have h1 := hf (levelFor n into) k
  have h2 := hg (levelFor n into) k'
  have h3 : ShowsAs (a.map (levelFor n into ++ ·)) (b.map (levelFor n into ++ ·)) := by
    cases hab with
    | none => exact .none
    | some h => exact .some (h.prepend _)
  have h4 := h1.trans (h3.trans h2.symm)
  cases h5 : f (levelFor n into) e k with
  | none =>
    rw [h5] at h4
    rw [M.run_bind_none h5]
    cases h6 : g (levelFor n into) e k' with
    | none => rw [M.run_bind_none h6]; exact .none
    | some r => rw [h6] at h4; cases h4
  | some r =>
    rw [h5] at h4
    rw [M.run_bind_some h5]
    cases h6 : g (levelFor n into) e k' with
    | none => rw [h6] at h4; cases h4
    | some r' =>
      rw [h6] at h4
      rw [M.run_bind_some h6]
      cases h4 with
      | some h4 =>
        refine .some ?_
        cases n with
        | none => exact h4
        | some n => exact .prepend (.group n h4 .nil) into

variable [CustomProcessor σ]

/-- One processor with all parts shows what a mount with many processors shows. -/
theorem gather_shows (hc : StillAt σ L e) (ha : CustomFrames σ L) (hf : Frozen e t) {s x : ProcessorState σ L} {X : Type} {xs : List X}
    {y : X → ProcessorState σ L} {z : X → Processor σ L} {h : MountHead} (hx : x.Reordered (s.gather (xs.map y)))
    (hs : s.activity.maxInactivity = none) (hh : h.maxInactivity = none) (hn : h.name = s.name) (hy : ∀ a ∈ xs, (y a).Plain)
    (hz : ∀ a ∈ xs, ∀ into, M.Sync e (fun r r' => r.2 = r'.2) ((z a).putSnapshot into false) ((y a).putSnapshot into false)) (into : Snapshot) :
    ShowsAs ((x.putSnapshot into false e 0).map (·.1.2))
      (((Node.mount h (xs.map fun a => .processor (z a)) []).putSnapshot false into e 0).map (·.1.2)) := by
  obtain ⟨a, b, c, h1, h2, h3, h4⟩ := gives_gathered hc ha hf s y xs
  have h5 := gives_putParts h2 h3 h4
  have h6 : ∀ i ∈ xs, Gives e (putNodes false [Node.processor (z i)]) (twoOf (a i) (twoOf (b i) (c i))) := by
    intro i hi into k
    have h7 := gives_putParts (h1 i).1 (h1 i).2.1 (h1 i).2.2 into 0
    have h8 : ShowsAs (((z i).putSnapshot into false e k).map (·.1.2)) (((y i).putParts into e 0).map (·.1.2)) := by
      have h9 := hz i hi into k 0
      rw [put_unlimited (hy i hi).limit, (hy i hi).name] at h9
      have : ((y i).putParts (levelFor none into) >>= fun r => pure (r.1, closeLevel none into r.2)) = (y i).putParts into := bind_pure _
      rw [this] at h9
      revert h9
      cases (z i).putSnapshot into false e k <;> cases (y i).putParts into e 0 <;> intro h9
      · exact .none
      · cases h9
      · cases h9
      · cases h9 with
        | some h9 =>
          refine .some ?_
          dsimp only
          rw [h9]
          exact .refl _
    refine ShowsAs.trans ?_ (h8.trans h7)
    have : putNodes false [Node.processor (z i)] into = (z i).putSnapshot into false >>= fun r => pure ([Node.processor r.1], r.2) := by
      simp only [putNodes, Node.putSnapshot, bind_assoc, pure_bind]
    rw [this]
    cases h9 : (z i).putSnapshot into false e k with
    | none => rw [M.run_bind_none h9]; exact .none
    | some r => rw [M.run_bind_some h9]; exact .refl _
  have h7 := gives_flatMap (f := putNodes (σ := σ) (L := L) false) (fun s => by rw [putNodes]) (putNodes_append false)
    (fun i => [Node.processor (z i)]) _ xs h6
  have h8 : ShowsAs ((x.putSnapshot into false e 0).map (·.1.2)) (((s.gather (xs.map y)).putSnapshot into false e 0).map (·.1.2)) := by
    have h9 := hx.put hc ha hf into into 0 0
    revert h9
    cases x.putSnapshot into false e 0 <;> cases (s.gather (xs.map y)).putSnapshot into false e 0 <;> intro h9
    · exact .none
    · cases h9
    · cases h9
    · cases h9 with
      | some h9 => exact .some (h9.reordered (.refl _))
  refine h8.trans ?_
  have hg : (s.gather (xs.map y)).activity.maxInactivity = none := hs
  rw [put_unlimited hg]
  have hm : (Node.mount h (xs.map fun a => Node.processor (z a)) []).putSnapshot false into =
      putNodes false (xs.flatMap fun i => [Node.processor (z i)]) (levelFor s.name into) >>= fun r =>
        pure (Node.mount h r.1 [], closeLevel s.name into r.2) := by
    have hl : h.activity.maxInactivity = none := hh
    rw [Node.putSnapshot, ← hn]
    simp only [putDefaultDescriptives, Bool.false_eq_true, if_false, putFlags_unlimited hl, pure_bind, if_true, putSnapshooters]
    rw [← List.map_eq_flatMap]
  rw [hm]
  exact h5.close h7 (allOf_twoOf a b c xs).symm s.name into (fun c => c) (fun ns => Node.mount h ns []) 0 0

end
end Metrix
