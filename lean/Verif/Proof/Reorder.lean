import Verif.Spec.Reorder
import Verif.Proof.WithinTree

/-! Parts in another order handle the same and put the same, in another order. -/

namespace Metrix
variable {σ L : Type} {e : Env} {t : Int}

theorem M.Sync.trans {α β γ : Type} {R : α → β → Prop} {S : β → γ → Prop} {T : α → γ → Prop} {x : M α} {y : M β} {z : M γ}
    (h : M.Sync e R x y) (h' : M.Sync e S y z) (hT : ∀ a b c, R a b → S b c → T a c) : M.Sync e T x z := by
  intro k k'
  have h1 := h k k'
  have h2 := h' k' k'
  revert h1 h2
  cases x e k <;> cases y e k' <;> cases z e k' <;> intro h1 h2
  · exact .none
  · cases h2
  · cases h1
  · cases h1
  · cases h1
  · cases h1
  · cases h2
  · cases h1 with
    | some h1 =>
      cases h2 with
      | some h2 => exact .some (hT _ _ _ h1 h2)

theorem M.Sync.some {α β : Type} {R : α → β → Prop} {x : M α} {y : M β} (h : M.Sync e R x y) {k k₁ k' : Nat} {a : α}
    (hx : x e k = some (a, k₁)) : ∃ b k₂, y e k' = some (b, k₂) ∧ R a b := by
  have := h k k'
  rw [hx] at this
  cases hy : y e k' with
  | none => rw [hy] at this; cases this
  | some r =>
    rw [hy] at this
    cases this with
    | some h => exact ⟨r.1, r.2, rfl, h⟩

theorem M.Sync.none {α β : Type} {R : α → β → Prop} {x : M α} {y : M β} (h : M.Sync e R x y) {k k' : Nat} (hx : x e k = none) :
    y e k' = none := by
  have := h k k'
  rw [hx] at this
  cases hy : y e k' with
  | none => rfl
  | some r => rw [hy] at this; cases this

theorem M.Sync.symm {α β : Type} {R : α → β → Prop} {x : M α} {y : M β} (h : M.Sync e R x y) : M.Sync e (fun b a => R a b) y x := by
  intro k k'
  have := h k' k
  revert this
  cases x e k' <;> cases y e k <;> intro this
  · exact .none
  · cases this
  · cases this
  · cases this with
    | some h => exact .some h

/-- Two computations that do not depend on each other can change places. -/
theorem M.Sync.comm {α α' β β' γ δ : Type} {R : α → α' → Prop} {S : β → β' → Prop} {T : γ → δ → Prop} {x : M α} {x' : M α'} {y : M β}
    {y' : M β'} {f : α → β → M γ} {g : α' → β' → M δ} (hx : M.Sync e R x x') (hy : M.Sync e S y y')
    (hf : ∀ a a' b b', R a a' → S b b' → M.Sync e T (f a b) (g a' b')) :
    M.Sync e T (x >>= fun a => y >>= fun b => f a b) (y' >>= fun b => x' >>= fun a => g a b) := by
  intro k k'
  cases h1 : x e k with
  | none =>
    rw [M.run_bind_none h1]
    cases h2 : y' e k' with
    | none => rw [M.run_bind_none h2]; exact .none
    | some b => rw [M.run_bind_some h2, M.run_bind_none (hx.none h1)]; exact .none
  | some a =>
    cases h2 : y e a.2 with
    | none => rw [M.run_bind_some h1, M.run_bind_none h2, M.run_bind_none (hy.none h2)]; exact .none
    | some b =>
      obtain ⟨b', kb, h2', hb⟩ := hy.some (k' := k') h2
      obtain ⟨a', ka, h1', ha⟩ := hx.some (k' := kb) h1
      rw [M.run_bind_some h1, M.run_bind_some h2, M.run_bind_some h2', M.run_bind_some h1']
      exact hf _ _ _ _ ha hb _ _

/-! ## Snapshots -/

namespace Snapshot.Reordered

theorem refl : ∀ s : Snapshot, s.Reordered s
  | [] => .nil
  | x :: s => .same x (refl s)

theorem prepend {u u' : Snapshot} (h : u.Reordered u') : ∀ s : Snapshot, Snapshot.Reordered (s ++ u) (s ++ u')
  | [] => h
  | x :: s => .same x (h.prepend s)

theorem append {s s' u u' : Snapshot} (h : s.Reordered s') (hu : u.Reordered u') : Snapshot.Reordered (s ++ u) (s' ++ u') := by
  suffices h' : Snapshot.Reordered (s ++ u) (s' ++ u) from h'.trans (hu.prepend s')
  clear hu
  induction h with
  | nil => exact refl u
  | same x _ ih => exact .same x ih
  | group n h1 _ _ ih => exact .group n h1 ih
  | swap x y => exact .swap x y
  | trans _ _ ih1 ih2 => exact .trans ih1 ih2

theorem front (x : String × ItemKind) : ∀ s : Snapshot, Snapshot.Reordered (x :: s) (s ++ [x])
  | [] => refl [x]
  | y :: s => .trans (.swap x y) (.same y (front x s))

theorem comm : ∀ s u : Snapshot, Snapshot.Reordered (s ++ u) (u ++ s)
  | [], u => by rw [List.nil_append, List.append_nil]; exact refl u
  | x :: s, u => by
    have h := (front x (s ++ u)).trans (append (comm s u) (refl [x]))
    refine h.trans ?_
    rw [List.append_assoc]
    refine prepend ?_ u
    have : ∀ s : Snapshot, Snapshot.Reordered (s ++ [x]) (x :: s) := by
      intro s
      induction s with
      | nil => exact refl [x]
      | cons y s ih => exact .trans (.same y ih) (.swap y x)
    exact this s

end Snapshot.Reordered

theorem Snapshot.Reordered.symm {s s' : Snapshot} (h : s.Reordered s') : s'.Reordered s := by
  induction h with
  | nil => exact .nil
  | same x _ ih => exact .same x ih
  | group n _ _ ih1 ih2 => exact .group n ih1 ih2
  | swap x y => exact .swap y x
  | trans _ _ ih1 ih2 => exact .trans ih2 ih1

/-- The same is added to both, in another order. -/
def AddsReordered (s s' x y : Snapshot) : Prop := ∃ a a' : Snapshot, x = s ++ a ∧ y = s' ++ a' ∧ a.Reordered a'

namespace AddsReordered
variable {s s' x y u v : Snapshot}

theorem refl (s s' : Snapshot) : AddsReordered s s' s s' := ⟨[], [], by simp, by simp, .nil⟩

theorem andThen (h : AddsReordered s s' x y) (h' : AddsReordered x y u v) : AddsReordered s s' u v := by
  obtain ⟨a, a', rfl, rfl, h1⟩ := h
  obtain ⟨b, b', rfl, rfl, h2⟩ := h'
  exact ⟨a ++ b, a' ++ b', by simp, by simp, h1.append h2⟩

theorem of_same (h : AddsSame s s' x y) : AddsReordered s s' x y := by
  obtain ⟨a, rfl, rfl⟩ := h
  exact ⟨a, a, rfl, rfl, .refl a⟩

theorem push (n : String) (v : ItemKind) : AddsReordered s s' (s.push n v) (s'.push n v) :=
  of_same ((AddsSame.refl _ _).push n v)

theorem pushGroup (h : AddsReordered [] [] u v) (n : String) :
    AddsReordered s s' (s.push n (.snapshot u)) (s'.push n (.snapshot v)) := by
  obtain ⟨a, a', e1, e2, h⟩ := h
  rw [e1, e2]
  exact ⟨[(n, .snapshot ([] ++ a))], [(n, .snapshot ([] ++ a'))], rfl, rfl, .group n h .nil⟩

theorem closeLevel (n : Option String) (h : AddsReordered (levelFor n s) (levelFor n s') u v) :
    AddsReordered s s' (closeLevel n s u) (closeLevel n s' v) := by
  cases n with
  | none => exact h
  | some n => exact pushGroup h n

theorem symm (h : AddsReordered s s' x y) : AddsReordered s' s y x := by
  obtain ⟨a, a', e1, e2, h⟩ := h
  exact ⟨a', a, e2, e1, h.symm⟩

theorem reordered (h : AddsReordered s s' x y) (hs : s.Reordered s') : x.Reordered y := by
  obtain ⟨a, a', rfl, rfl, h⟩ := h
  exact hs.append h

end AddsReordered

/-- Both put the same, in another order. -/
abbrev PutsReordered {C : Type} (e : Env) (s s' : Snapshot) (x y : M (C × Snapshot)) : Prop :=
  M.Sync e (fun r r' => AddsReordered s s' r.2 r'.2) x y

/-- Two parts that do not depend on each other can change places. -/
theorem PutsReordered.comm {α α' β β' γ δ : Type} {T : γ → δ → Prop} {x : Snapshot → M (α × Snapshot)}
    {x' : Snapshot → M (α' × Snapshot)} {y : Snapshot → M (β × Snapshot)} {y' : Snapshot → M (β' × Snapshot)}
    {f : α → β → Snapshot → M γ} {g : α' → β' → Snapshot → M δ} (hx : ∀ s s', M.Sync e (fun r r' => AddsReordered s s' r.2 r'.2) (x s) (x' s'))
    (hy : ∀ s s', M.Sync e (fun r r' => AddsReordered s s' r.2 r'.2) (y s) (y' s')) {s s' : Snapshot}
    (hf : ∀ a a' b b' u u', AddsReordered s s' u u' → M.Sync e T (f a b u) (g a' b' u')) :
    M.Sync e T (x s >>= fun a => y a.2 >>= fun b => f a.1 b.1 b.2) (y' s' >>= fun b => x' b.2 >>= fun a => g a.1 b.1 a.2) := by
  intro k k'
  cases h1 : x s e k with
  | none =>
    rw [M.run_bind_none h1]
    cases h2 : y' s' e k' with
    | none => rw [M.run_bind_none h2]; exact .none
    | some b => rw [M.run_bind_some h2, M.run_bind_none ((hx s _).none h1)]; exact .none
  | some a =>
    cases h2 : y a.1.2 e a.2 with
    | none => rw [M.run_bind_some h1, M.run_bind_none h2, M.run_bind_none ((hy _ s').none h2)]; exact .none
    | some b =>
      obtain ⟨b', kb, h2', hb⟩ := (hy _ s').some (k' := k') h2
      obtain ⟨a', ka, h1', ha⟩ := (hx s b'.2).some (k' := kb) h1
      rw [M.run_bind_some h1, M.run_bind_some h2, M.run_bind_some h2', M.run_bind_some h1']
      refine hf _ _ _ _ _ _ ?_ _ _
      obtain ⟨p, p', e1, e1', hp⟩ := ha
      obtain ⟨q, q', e2, e2', hq⟩ := hb
      refine ⟨p ++ q, q' ++ p', ?_, ?_, (hp.append hq).trans (.comm p' q')⟩
      · rw [e2, e1, List.append_assoc]
      · rw [e1', e2', List.append_assoc]

/-- To read the clock does not matter. -/
theorem M.Sync.nowLeft {α β : Type} {T : α → β → Prop} {f : Int → M α} {y : M β} (h : ∀ now, M.Sync e T (f now) y) :
    M.Sync e T (M.now >>= f) y := fun k k' => by
  rw [M.run_bind_some (M.run_now (e := e) (k := k))]
  exact h _ _ _

/-- Both do the same, and the results are related. -/
abbrev HandlesAs {C : Type} (e : Env) (R : C → C → Prop) (x y : M (C × Nat)) : Prop := M.Sync e (fun r r' => R r.1 r'.1 ∧ r.2 = r'.2) x y

/-! ## Lists of parts -/

section Lists
variable {C : Type}

/-- What `handlePanels`, `handleHandlers` and `handleCockpits` have in common. -/
def handleAll (f : C → M (C × Nat)) : List C → M (List C × Nat)
  | [] => return ([], 0)
  | c :: cs => do
    let (c, n) ← f c
    let (cs, m) ← handleAll f cs
    return (c :: cs, n + m)

/-- What `putPanels`, `putHandlers`, `putSnapshooters` and `putCockpits` have in common. -/
def putAll (f : C → Snapshot → M (C × Snapshot)) : List C → Snapshot → M (List C × Snapshot)
  | [], into => return ([], into)
  | c :: cs, into => do
    let (c, into) ← f c into
    let (cs, into) ← putAll f cs into
    return (c :: cs, into)

variable {f : C → M (C × Nat)} {g : C → Snapshot → M (C × Snapshot)} {R : C → C → Prop} {S : List C → List C → Prop} {p p' q q' : C}
  {ps ps' : List C}

theorem handleAll_cons (h1 : HandlesAs e R (f p) (f p')) (h2 : HandlesAs e S (handleAll f ps) (handleAll f ps'))
    (hc : ∀ {a a' b b'}, R a a' → S b b' → S (a :: b) (a' :: b')) : HandlesAs e S (handleAll f (p :: ps)) (handleAll f (p' :: ps')) := by
  refine .bind _ h1 ?_
  rintro ⟨a, n⟩ ⟨a', _⟩ ⟨ha, rfl⟩
  refine .bind _ h2 ?_
  rintro ⟨b, m⟩ ⟨b', _⟩ ⟨hb, rfl⟩
  exact .pure ⟨hc ha hb, rfl⟩

theorem handleAll_swap {R' : C → C → Prop} (h1 : HandlesAs e R (f p) (f p')) (h2 : HandlesAs e R' (f q) (f q'))
    (h3 : HandlesAs e S (handleAll f ps) (handleAll f ps'))
    (hc : ∀ {a a' b b' c c'}, R a a' → R' b b' → S c c' → S (a :: b :: c) (b' :: a' :: c')) :
    HandlesAs e S (handleAll f (p :: q :: ps)) (handleAll f (q' :: p' :: ps')) := by
  intro k k'
  have l1 : ∀ {r s : C} {l : List C}, f r e k = none → handleAll f (r :: s :: l) e k = none := fun h => M.run_bind_none h
  have l2 : ∀ {r s : C} {l : List C} {k k₁ : Nat} {a : C × Nat}, f r e k = some (a, k₁) → f s e k₁ = none →
      handleAll f (r :: s :: l) e k = none := by
    intro r s l k k₁ a ha hb
    unfold handleAll
    rw [M.run_bind_some ha]
    refine M.run_bind_none ?_
    unfold handleAll
    exact M.run_bind_none hb
  have l3 : ∀ {r s : C} {l : List C} {k k₁ k₂ : Nat} {a b : C × Nat}, f r e k = some (a, k₁) → f s e k₁ = some (b, k₂) →
      handleAll f (r :: s :: l) e k = (handleAll f l e k₂).map fun c => ((a.1 :: b.1 :: c.1.1, a.2 + (b.2 + c.1.2)), c.2) := by
    intro r s l k k₁ k₂ a b ha hb
    rw [handleAll, M.run_bind_some ha]
    dsimp only
    rw [handleAll]
    cases hl : handleAll f l e k₂ with
    | none =>
      refine M.run_bind_none ?_
      rw [M.run_bind_some hb]
      exact M.run_bind_none hl
    | some c =>
      refine M.run_bind_some (a := (b.1 :: c.1.1, b.2 + c.1.2)) (k' := c.2) ?_
      rw [M.run_bind_some hb]
      exact M.run_bind_some hl
  cases hp : f p e k with
  | none =>
    rw [l1 hp]
    cases hq : f q' e k' with
    | none => rw [handleAll, M.run_bind_none hq]; exact .none
    | some b => rw [l2 hq (h1.none hp)]; exact .none
  | some a =>
    cases hq : f q e a.2 with
    | none => rw [l2 hp hq, handleAll, M.run_bind_none (h2.none hq)]; exact .none
    | some b =>
      obtain ⟨b', kb, hq', hb1, hb2⟩ := h2.some (k' := k') hq
      obtain ⟨a', ka, hp', ha1, ha2⟩ := h1.some (k' := kb) hp
      rw [l3 hp hq, l3 hq' hp']
      have := h3 b.2 ka
      cases hl : handleAll f ps e b.2 with
      | none => rw [h3.none hl]; exact .none
      | some c =>
        obtain ⟨c', kc, hl', hc1, hc2⟩ := h3.some (k' := ka) hl
        rw [hl']
        refine .some ⟨hc ha1 hb1 hc1, ?_⟩
        dsimp only at ha2 hb2 hc2 ⊢
        omega

theorem handleAll_append (f : C → M (C × Nat)) (ps qs : List C) :
    handleAll f (ps ++ qs) = handleAll f ps >>= fun a => handleAll f qs >>= fun b => pure (a.1 ++ b.1, a.2 + b.2) := by
  induction ps with
  | nil =>
    simp only [List.nil_append, handleAll, pure_bind, Nat.zero_add]
    exact (bind_pure _).symm
  | cons p ps ih => simp only [List.cons_append, handleAll, ih, bind_assoc, pure_bind, Nat.add_assoc]

theorem putAll_append (g : C → Snapshot → M (C × Snapshot)) (ps qs : List C) (s : Snapshot) :
    putAll g (ps ++ qs) s = putAll g ps s >>= fun a => putAll g qs a.2 >>= fun b => pure (a.1 ++ b.1, b.2) := by
  induction ps generalizing s with
  | nil =>
    simp only [List.nil_append, putAll, pure_bind]
    exact (bind_pure _).symm
  | cons p ps ih => simp only [List.cons_append, putAll, ih, bind_assoc, pure_bind]

theorem putAll_cons {s s' : Snapshot} (h1 : PutsReordered e s s' (g p s) (g p' s'))
    (h2 : ∀ s s', PutsReordered e s s' (putAll g ps s) (putAll g ps' s')) :
    PutsReordered e s s' (putAll g (p :: ps) s) (putAll g (p' :: ps') s') := by
  refine .bind _ h1 ?_
  rintro ⟨a, x⟩ ⟨a', x'⟩ ha
  refine .bind _ (h2 x x') ?_
  rintro ⟨b, y⟩ ⟨b', y'⟩ hb
  exact .pure (ha.andThen hb)

theorem putAll_swap {s s' : Snapshot} (h1 : ∀ s s', PutsReordered e s s' (g p s) (g p' s'))
    (h2 : ∀ s s', PutsReordered e s s' (g q s) (g q' s')) (h3 : ∀ s s', PutsReordered e s s' (putAll g ps s) (putAll g ps' s')) :
    PutsReordered e s s' (putAll g (p :: q :: ps) s) (putAll g (q' :: p' :: ps') s') := by
  intro k k'
  have l2 : ∀ {r u : C} {l : List C} {k k₁ : Nat} {s : Snapshot} {a : C × Snapshot}, g r s e k = some (a, k₁) → g u a.2 e k₁ = none →
      putAll g (r :: u :: l) s e k = none := by
    intro r u l k k₁ s a ha hb
    unfold putAll
    rw [M.run_bind_some ha]
    refine M.run_bind_none ?_
    unfold putAll
    exact M.run_bind_none hb
  have l3 : ∀ {r u : C} {l : List C} {k k₁ k₂ : Nat} {s : Snapshot} {a b : C × Snapshot}, g r s e k = some (a, k₁) →
      g u a.2 e k₁ = some (b, k₂) →
      putAll g (r :: u :: l) s e k = (putAll g l b.2 e k₂).map fun c => ((a.1 :: b.1 :: c.1.1, c.1.2), c.2) := by
    intro r u l k k₁ k₂ s a b ha hb
    rw [putAll, M.run_bind_some ha]
    dsimp only
    rw [putAll]
    cases hl : putAll g l b.2 e k₂ with
    | none =>
      refine M.run_bind_none ?_
      rw [M.run_bind_some hb]
      exact M.run_bind_none hl
    | some c =>
      refine M.run_bind_some (a := (b.1 :: c.1.1, c.1.2)) (k' := c.2) ?_
      rw [M.run_bind_some hb]
      exact M.run_bind_some hl
  cases hp : g p s e k with
  | none =>
    rw [putAll, M.run_bind_none hp]
    cases hq : g q' s' e k' with
    | none => rw [putAll, M.run_bind_none hq]; exact .none
    | some b => rw [l2 hq ((h1 s b.1.2).none hp)]; exact .none
  | some a =>
    cases hq : g q a.1.2 e a.2 with
    | none => rw [l2 hp hq, putAll, M.run_bind_none ((h2 a.1.2 s').none hq)]; exact .none
    | some b =>
      obtain ⟨b', kb, hq', hb⟩ := (h2 a.1.2 s').some (k' := k') hq
      obtain ⟨a', ka, hp', ha⟩ := (h1 s b'.2).some (k' := kb) hp
      rw [l3 hp hq, l3 hq' hp']
      cases hl : putAll g ps b.1.2 e b.2 with
      | none => rw [(h3 b.1.2 a'.2).none hl]; exact .none
      | some c =>
        obtain ⟨c', kc, hl', hc⟩ := (h3 b.1.2 a'.2).some (k' := ka) hl
        rw [hl']
        refine .some ?_
        dsimp only
        obtain ⟨x, x', ea, ea', hx⟩ := ha
        obtain ⟨y, y', eb, eb', hy⟩ := hb
        obtain ⟨z, z', ec, ec', hz⟩ := hc
        refine ⟨x ++ y ++ z, y' ++ x' ++ z', ?_, ?_, ((hx.append hy).trans (.comm x' y')).append hz⟩
        · rw [ec, eb, ea]; simp only [List.append_assoc]
        · rw [ec', ea', eb']; simp only [List.append_assoc]

theorem puts_trans {α : Type} {s s' : Snapshot} {x y z : M (α × Snapshot)}
    (h1 : PutsReordered e s s' x y) (h2 : PutsReordered e s' s' y z) : PutsReordered e s s' x z := by
  refine h1.trans h2 ?_
  rintro a b c ⟨x, x', e1, e2, hx⟩ ⟨y, y', e3, e4, hy⟩
  rw [e2] at e3
  cases List.append_cancel_left e3
  exact ⟨x, y', e1, e4, hx.trans hy⟩

theorem putAll_trans {qs : List C} {s s' : Snapshot} (h1 : ∀ s s', PutsReordered e s s' (putAll g ps s) (putAll g ps' s'))
    (h2 : ∀ s s', PutsReordered e s s' (putAll g ps' s) (putAll g qs s')) :
    PutsReordered e s s' (putAll g ps s) (putAll g qs s') :=
  puts_trans (h1 s s') (h2 s' s')

end Lists

end Metrix
