import Verif.Spec.Exhibits
import Verif.Proof.Append
import Verif.Proof.ForwardRun
import Verif.Proof.Named
import Verif.Proof.DriverMetrics

/-! # Snapshots show what is in a tree -/

namespace Metrix

/-! ## Snapshots -/

theorem Snapshot.Group.append_left {path : List String} (hp : path ≠ []) {level a : Snapshot} (b : Snapshot)
    (h : Group path level a) : Group path level (a ++ b) := by
  cases path with
  | nil => exact absurd rfl hp
  | cons n path => obtain ⟨sub, hm, h⟩ := h; exact ⟨sub, List.mem_append_left _ hm, h⟩

theorem Snapshot.Group.append_right {path : List String} (hp : path ≠ []) {level b : Snapshot} (a : Snapshot)
    (h : Group path level b) : Group path level (a ++ b) := by
  cases path with
  | nil => exact absurd rfl hp
  | cons n path => obtain ⟨sub, hm, h⟩ := h; exact ⟨sub, List.mem_append_right _ hm, h⟩

theorem Snapshot.ShowsAt.append_left {path : List String} {items a : Snapshot} (b : Snapshot)
    (h : a.ShowsAt path items) : Snapshot.ShowsAt (a ++ b) path items := by
  obtain ⟨level, hg, hi⟩ := h
  cases path with
  | nil => cases hg; exact ⟨_, rfl, hi.trans (List.infix_append' [] a b)⟩
  | cons n path => exact ⟨level, hg.append_left (by simp) b, hi⟩

theorem Snapshot.ShowsAt.append_right {path : List String} {items b : Snapshot} (a : Snapshot)
    (h : b.ShowsAt path items) : Snapshot.ShowsAt (a ++ b) path items := by
  obtain ⟨level, hg, hi⟩ := h
  cases path with
  | nil => cases hg; exact ⟨_, rfl, hi.trans (List.suffix_append a b).isInfix⟩
  | cons n path => exact ⟨level, hg.append_right (by simp) a, hi⟩

theorem Snapshot.HasAt.of_append {path : List String} {n : String} {i : ItemKind} {a b : Snapshot}
    (h : Snapshot.HasAt (a ++ b) path n i) : a.HasAt path n i ∨ b.HasAt path n i := by
  obtain ⟨level, hg, hi⟩ := h
  cases path with
  | nil =>
    cases hg
    rcases List.mem_append.mp hi with hi | hi
    · exact .inl ⟨_, rfl, hi⟩
    · exact .inr ⟨_, rfl, hi⟩
  | cons m path =>
    obtain ⟨sub, hm, hg⟩ := hg
    rcases List.mem_append.mp hm with hm | hm
    · exact .inl ⟨level, ⟨sub, hm, hg⟩, hi⟩
    · exact .inr ⟨level, ⟨sub, hm, hg⟩, hi⟩

theorem Snapshot.HasAt.append_left {path : List String} {n : String} {i : ItemKind} {a : Snapshot} (b : Snapshot)
    (h : a.HasAt path n i) : Snapshot.HasAt (a ++ b) path n i := by
  obtain ⟨level, hg, hi⟩ := h
  cases path with
  | nil => cases hg; exact ⟨_, rfl, List.mem_append_left _ hi⟩
  | cons m path => exact ⟨level, hg.append_left (by simp) b, hi⟩

/-! ## What was shown -/

variable {X : Type} {put : X → Nat → Snapshot → Nat → Prop} {d : Bool} {e : Env}

theorem Snapshot.not_hasAt_nil {path : List String} {n : String} {i : ItemKind} : ¬ Snapshot.HasAt [] path n i := by
  rintro ⟨level, hg, hi⟩
  cases path with
  | nil => cases hg; simp at hi
  | cons m path => obtain ⟨_, hm, _⟩ := hg; simp at hm

theorem Displays.nil {k k' : Nat} (h : k ≤ k') : Displays put d e k [] [] k' [] :=
  ⟨h, fun _ hx => by simp at hx, fun _ _ _ _ hx => (Snapshot.not_hasAt_nil hx).elim⟩

theorem Displays.one {k k' : Nat} {x : X} {items : Snapshot} (h : k ≤ k') (hp : put x k items k') :
    Displays put d e k [⟨[], [], x⟩] [] k' items := by
  refine ⟨h, fun y hy _ => ?_, fun _ path n i hx => .inl ⟨_, List.mem_singleton.mpr rfl, k, k', items, path, rfl, Nat.le_refl _, Nat.le_refl _, hp, hx⟩⟩
  cases List.mem_singleton.mp hy
  exact ⟨k, k', items, Nat.le_refl _, Nat.le_refl _, hp, _, rfl, List.infix_rfl⟩

theorem Activity.ShowsValuesAt.earlier {a : Activity} {t t' : Int} (h : a.ShowsValuesAt t') (ht : t ≤ t') : a.ShowsValuesAt t := by
  rcases h with h | h
  · exact .inl h
  · exact .inr fun d hd => by have := h d hd; omega

theorem Displays.append (mono : e.Mono) {k k₁ k' : Nat} {ex ex' : List (Exhibit X)} {gs gs' : List (List String)} {own own' : Snapshot}
    (h : Displays put d e k ex gs k₁ own) (h' : Displays put d e k₁ ex' gs' k' own') :
    Displays put d e k (ex ++ ex') (gs ++ gs') k' (own ++ own') := by
  have hle := h.le
  have hle' := h'.le
  refine ⟨by omega, fun x hx hs => ?_, fun hd path n i hx => ?_⟩
  · rcases List.mem_append.mp hx with hx | hx
    · obtain ⟨j, j', items, hj, hj', hp, hsh⟩ := h.shown x hx fun a ha => (hs a ha).earlier (mono _ _ hle')
      exact ⟨j, j', items, hj, by omega, hp, hsh.append_left _⟩
    · obtain ⟨j, j', items, hj, hj', hp, hsh⟩ := h'.shown x hx hs
      exact ⟨j, j', items, by omega, hj', hp, hsh.append_right _⟩
  · rcases hx.of_append with hx | hx
    · rcases h.nothingElse hd path n i hx with ⟨x, hx, j, j', items, rest, hpath, hj, hj', hp, hh⟩ | ⟨hg, hi⟩ | ⟨hn, hg⟩
      · exact .inl ⟨x, List.mem_append_left _ hx, j, j', items, rest, hpath, hj, by omega, hp, hh⟩
      · exact .inr (.inl ⟨List.mem_append_left _ hg, hi⟩)
      · exact .inr (.inr ⟨hn, hg.imp_right (List.mem_append_left _)⟩)
    · rcases h'.nothingElse hd path n i hx with ⟨x, hx, j, j', items, rest, hpath, hj, hj', hp, hh⟩ | ⟨hg, hi⟩ | ⟨hn, hg⟩
      · exact .inl ⟨x, List.mem_append_right _ hx, j, j', items, rest, hpath, by omega, hj', hp, hh⟩
      · exact .inr (.inl ⟨List.mem_append_right _ hg, hi⟩)
      · exact .inr (.inr ⟨hn, hg.imp_right (List.mem_append_right _)⟩)

/-- Other flags or texts in front. -/
theorem Displays.notes {k k' : Nat} {own : Snapshot} (h : k ≤ k')
    (hn : d = false → ∀ path n i, own.HasAt path n i → n ∈ ["_active", "_inactive"] ∧ path = []) :
    Displays put d e k [] [] k' own :=
  ⟨h, fun _ hx => by simp at hx, fun hd path n i hx => by
    obtain ⟨h1, h2⟩ := hn hd path n i hx
    exact .inr (.inr ⟨h1, .inl h2⟩)⟩

/-- Everything in a container with an optional name. -/
theorem Displays.level {k k' : Nat} {ex : List (Exhibit X)} {gs : List (List String)} {own into : Snapshot} (name : Option String)
    (act : Option Activity) (h : Displays put d e k ex gs k' own) :
    ∃ own', closeLevel name into (levelFor name into ++ own) = into ++ own' ∧
      Displays put d e k (ex.map (Exhibit.inside name act)) (groupsInside name gs) k' own' := by
  cases name with
  | none =>
    refine ⟨own, rfl, h.le, fun x hx hs => ?_, fun hd path n i hx => ?_⟩
    · obtain ⟨y, hy, rfl⟩ := List.mem_map.mp hx
      exact h.shown y hy fun a ha => hs a (by simp [Exhibit.inside, ha])
    · rcases h.nothingElse hd path n i hx with ⟨x, hx, hrest⟩ | hrest
      · exact .inl ⟨_, List.mem_map_of_mem hx, hrest⟩
      · exact .inr hrest
  | some name =>
    refine ⟨[(name, .snapshot own)], rfl, h.le, fun x hx hs => ?_, fun hd path n i hx => ?_⟩
    · obtain ⟨y, hy, rfl⟩ := List.mem_map.mp hx
      obtain ⟨j, j', items, hj, hj', hp, level, hg, hi⟩ := h.shown y hy fun a ha => hs a (by simp [Exhibit.inside, ha])
      exact ⟨j, j', items, hj, hj', hp, level, ⟨own, by simp, hg⟩, hi⟩
    · obtain ⟨level, hg, hi⟩ := hx
      cases path with
      | nil =>
        cases hg
        simp only [List.mem_singleton, Prod.mk.injEq] at hi
        obtain ⟨rfl, rfl⟩ := hi
        exact .inr (.inl ⟨by simp [groupsInside], _, rfl⟩)
      | cons m path =>
        obtain ⟨sub, hm, hg⟩ := hg
        simp only [List.mem_singleton, Prod.mk.injEq, ItemKind.snapshot.injEq] at hm
        obtain ⟨rfl, rfl⟩ := hm
        rcases h.nothingElse hd path n i ⟨level, hg, hi⟩ with
          ⟨x, hx, j, j', items, rest, hpath, hrest⟩ | ⟨hgs, hrest⟩ | ⟨hn, hgs⟩
        · exact .inl ⟨_, List.mem_map_of_mem hx, j, j', items, rest, by simp [Exhibit.inside, hpath], hrest⟩
        · exact .inr (.inl ⟨by simp [groupsInside, hgs], hrest⟩)
        · refine .inr (.inr ⟨hn, .inr ?_⟩)
          rcases hgs with rfl | hgs
          · simp [groupsInside]
          · simp [groupsInside, hgs]

/-- Inactive: only flags are shown. -/
theorem Displays.hidden {k k' : Nat} {own into : Snapshot} (name : Option String) (act : Activity) (ex : List (Exhibit X))
    (gs : List (List String)) (h : Displays put d e k [] [] k' own) (hidden : ¬ act.ShowsValuesAt (e.clock k')) :
    ∃ own', closeLevel name into (levelFor name into ++ own) = into ++ own' ∧
      Displays put d e k (ex.map (Exhibit.inside name (some act))) (groupsInside name gs) k' own' := by
  obtain ⟨own', heq, h'⟩ := h.level (into := into) name (some act)
  refine ⟨own', heq, h'.le, fun x hx hs => ?_, fun hd path n i hx => ?_⟩
  · obtain ⟨y, hy, rfl⟩ := List.mem_map.mp hx
    exact (hidden (hs act (by simp [Exhibit.inside]))).elim
  · rcases h'.nothingElse hd path n i hx with ⟨x, hx, _⟩ | ⟨hg, hi⟩ | ⟨hn, hg⟩
    · simp at hx
    · refine .inr (.inl ⟨?_, hi⟩)
      cases name <;> simp_all [groupsInside]
    · refine .inr (.inr ⟨hn, hg.imp_right ?_⟩)
      intro hg
      cases name <;> simp_all [groupsInside]

/-! ## Containers -/

theorem Snapshot.hasAt_flags {path : List String} {n : String} {i : ItemKind} {a b : Bool}
    (h : Snapshot.HasAt [("_inactive", ItemKind.boolean a), ("_active", .boolean b)] path n i) :
    n ∈ ["_active", "_inactive"] ∧ path = [] := by
  obtain ⟨level, hg, hi⟩ := h
  cases path with
  | nil =>
    cases hg
    simp only [List.mem_cons, Prod.mk.injEq, List.not_mem_nil, or_false] at hi
    rcases hi with ⟨rfl, _⟩ | ⟨rfl, _⟩ <;> simp
  | cons m path => obtain ⟨_, hm, _⟩ := hg; simp at hm

theorem Activity.displays (mono : e.Mono) {a : Activity} {s : Snapshot} {g : Bool} {lv : Snapshot} {k k' : Nat}
    (h : a.putFlags s e k = some ((g, lv), k')) :
    ∃ own, lv = s ++ own ∧ Displays put d e k [] [] k' own ∧ (g = false → ¬ a.ShowsValuesAt (e.clock k')) := by
  unfold Activity.putFlags at h
  cases hm : a.maxInactivity with
  | none =>
    simp only [hm, M.run_pure, Option.some.injEq, Prod.mk.injEq] at h
    obtain ⟨⟨rfl, rfl⟩, rfl⟩ := h
    exact ⟨[], by simp, .nil (Nat.le_refl _), by simp⟩
  | some m =>
    simp only [hm] at h
    split at h
    next hs =>
      simp only [M.bind_eq_some, M.run_now, Option.some.injEq, Prod.mk.injEq] at h
      obtain ⟨_, _, ⟨rfl, rfl⟩, h⟩ := h
      split at h
      next hlt =>
        simp only [M.run_pure, Option.some.injEq, Prod.mk.injEq] at h
        obtain ⟨⟨rfl, rfl⟩, rfl⟩ := h
        refine ⟨[("_inactive", .boolean true), ("_active", .boolean false)], by simp [Snapshot.push],
          .notes (by omega) fun _ _ _ _ hx => Snapshot.hasAt_flags hx, fun _ hv => ?_⟩
        rcases hv with hv | hv
        · simp [hs] at hv
        · have := hv m hm
          have := mono k (k + 1) (by omega)
          simp only [sinceNs] at hlt
          omega
      next hlt =>
        simp only [M.run_pure, Option.some.injEq, Prod.mk.injEq] at h
        obtain ⟨⟨rfl, rfl⟩, rfl⟩ := h
        exact ⟨[("_inactive", .boolean false), ("_active", .boolean true)], by simp [Snapshot.push],
          .notes (by omega) fun _ _ _ _ hx => Snapshot.hasAt_flags hx, by simp⟩
    next hs =>
      simp only [M.run_pure, Option.some.injEq, Prod.mk.injEq] at h
      obtain ⟨⟨rfl, rfl⟩, rfl⟩ := h
      exact ⟨[], by simp, .nil (Nat.le_refl _), by simp⟩

/-- The texts and flags of a container. -/
theorem displays_head (mono : e.Mono) {a : Activity} {ds : Descr} {s : Snapshot} {g : Bool} {lv : Snapshot} {k k' : Nat}
    (h : a.putFlags (putDefaultDescriptives ds s d) e k = some ((g, lv), k')) :
    ∃ own, lv = s ++ own ∧ Displays put d e k [] [] k' own ∧ (g = false → ¬ a.ShowsValuesAt (e.clock k')) := by
  obtain ⟨own, rfl, hd, hg⟩ := Activity.displays (put := put) (d := d) mono h
  obtain ⟨texts, ht⟩ := prefix_default ds s d
  refine ⟨texts ++ own, by rw [← ht]; simp, ?_, hg⟩
  refine Displays.append mono (.notes (Nat.le_refl _) fun hdf path n i hx => ?_) hd
  subst hdf
  have : texts = [] := by simpa [putDefaultDescriptives] using ht
  subst this
  exact (Snapshot.not_hasAt_nil hx).elim

/-- With the texts for the name in front. -/
theorem Displays.postfixed {ex : List (Exhibit X)} {gs : List (List String)} {own : Snapshot} (mono : e.Mono) {ds : Descr} {n : String} {k k' : Nat} {s : Snapshot} :
    ∃ texts, putPostfixedDescriptives ds n s d = s ++ texts ∧
      (Displays put d e k ex gs k' own → Displays put d e k ex gs k' (texts ++ own)) := by
  obtain ⟨texts, ht⟩ := prefix_postfixed ds n s d
  refine ⟨texts, ht.symm, fun h => ?_⟩
  refine Displays.append (gs := []) (ex := []) mono (.notes (Nat.le_refl _) fun hdf path n i hx => ?_) h
  subst hdf
  have : texts = [] := by simpa [putPostfixedDescriptives] using ht
  subst this
  exact (Snapshot.not_hasAt_nil hx).elim

/-! ## The tree -/

variable {σ L : Type} [Custom σ L]

/-- A put as part of another one. -/
theorem Displays.leaf {x x' : Snapshooter σ L} {s s' : Snapshot} {k k' : Nat} (hf : k ≤ k') (ha : s <+: s')
    (h : x.putSnapshot d s e k = some ((x', s'), k')) :
    ∃ own, s' = s ++ own ∧ Displays (fun x : Snapshooter σ L => x.Put d e) d e k [⟨[], [], x⟩] [] k' own := by
  obtain ⟨own, rfl⟩ := ha
  exact ⟨own, rfl, .one hf ⟨s, x', h⟩⟩

theorem displays_slot {I : Type} [IsInstrument I] (wrap : I → Instrument σ)
    (hw : ∀ i s d, Instrument.putSnapshot L (wrap i) s d = (do let (i, n) ← IsInstrument.putSnapshot i s d; return (wrap i, n)))
    (hfwd : ∀ (i : I) s d, M.Fwd (IsInstrument.putSnapshot i s d)) (happ : ∀ (i : I) s d, Appends s (IsInstrument.putSnapshot i s d))
    {a a' : Option (InstrumentAdapter L I)} {s s' : Snapshot} {k k' : Nat}
    (h : putSlot (fun a s => a.putSnapshot IsInstrument.putSnapshot s d) a s e k = some ((a', s'), k')) :
    ∃ own, s' = s ++ own ∧ Displays (fun x : Snapshooter σ L => x.Put d e) d e k
      (a.map fun a => ⟨[], [], .handler (.instrument (a.map wrap))⟩).toList [] k' own := by
  cases a with
  | none =>
    simp [putSlot] at h; obtain ⟨⟨_, rfl⟩, rfl⟩ := h
    exact ⟨[], by simp, .nil (Nat.le_refl _)⟩
  | some a =>
    have hf := (fwd_putSlot (fun a s => InstrumentAdapter.fwd_putSnapshot hfwd a s d) _ _).le h
    have ha := appends_putSlot (fun a s => InstrumentAdapter.appends happ a s d) _ _ _ _ _ _ h
    simp only [putSlot, InstrumentAdapter.putSnapshot, M.bind_eq_some, M.run_pure, Option.some.injEq, Prod.mk.injEq] at h
    obtain ⟨_, _, ⟨⟨i, s₁⟩, _, h, rfl, rfl⟩, ⟨rfl, rfl⟩, rfl⟩ := h
    refine Displays.leaf (x' := .handler (.instrument (InstrumentAdapter.map { a with instrument := i } wrap))) hf ha ?_
    unfold Snapshooter.putSnapshot Handler.putSnapshot
    simp only [InstrumentAdapter.putSnapshot, InstrumentAdapter.map, hw, bind_assoc, pure_bind]
    rw [M.run_bind_some h]; rfl

theorem displays_gauge {a a' : Option (GaugeAdapter L)} {s s' : Snapshot} {k k' : Nat}
    (h : putSlot (fun a s => a.putSnapshot s d) a s e k = some ((a', s'), k')) :
    ∃ own, s' = s ++ own ∧ Displays (fun x : Snapshooter σ L => x.Put d e) d e k
      (a.map fun a => ⟨[], [], .handler (.gauge a)⟩).toList [] k' own := by
  cases a with
  | none =>
    simp [putSlot] at h; obtain ⟨⟨_, rfl⟩, rfl⟩ := h
    exact ⟨[], by simp, .nil (Nat.le_refl _)⟩
  | some a =>
    have hf := (fwd_putSlot (fun a s => GaugeAdapter.fwd_putSnapshot a s d) _ _).le h
    have ha := appends_putSlot (fun a s => GaugeAdapter.appends a s d) _ _ _ _ _ _ h
    simp only [putSlot, M.bind_eq_some, M.run_pure, Option.some.injEq, Prod.mk.injEq] at h
    obtain ⟨r, _, h, ⟨rfl, rfl⟩, rfl⟩ := h
    refine Displays.leaf (x' := .handler (.gauge r.1)) hf ha ?_
    unfold Snapshooter.putSnapshot Handler.putSnapshot
    simp only [bind_assoc, pure_bind]
    rw [M.run_bind_some h]; rfl

theorem PanelHead.displays (mono : e.Mono) {h h' : PanelHead L} {s s' : Snapshot} {k k' : Nat}
    (hh : h.putSlots s d e k = some ((h', s'), k')) :
    ∃ own, s' = s ++ own ∧ Displays (fun x : Snapshooter σ L => x.Put d e) d e k h.exhibits [] k' own := by
  simp only [PanelHead.putSlots, M.bind_eq_some, M.run_pure, Option.some.injEq, Prod.mk.injEq] at hh
  obtain ⟨⟨a, s₁⟩, k₁, h1, ⟨b, s₂⟩, k₂, h2, ⟨c, s₃⟩, k₃, h3, ⟨f, s₄⟩, k₄, h4, ⟨rfl, rfl⟩, rfl⟩ := hh
  obtain ⟨o1, rfl, d1⟩ := displays_slot (σ := σ) .counter (fun _ _ _ => rfl)
    (fun i s d => fwd_keeping (.pure _)) (fun i s d => appends_keeping (.pure (i.appends s d))) h1
  obtain ⟨o2, rfl, d2⟩ := displays_gauge (σ := σ) h2
  obtain ⟨o3, rfl, d3⟩ := displays_slot (σ := σ) .meter (fun _ _ _ => rfl)
    (fun i s d => i.fwd_putSnapshot s d) (fun i s d => i.appends s d) h3
  obtain ⟨o4, rfl, d4⟩ := displays_slot (σ := σ) .histogram (fun _ _ _ => rfl)
    (fun i s d => fwd_keeping (i.fwd_putSnapshot s d)) (fun i s d => appends_keeping (i.appends s d)) h4
  refine ⟨o1 ++ o2 ++ o3 ++ o4, by simp, ?_⟩
  have := ((d1.append mono d2).append mono d3).append mono d4
  simpa [PanelHead.exhibits] using this

mutual
theorem Panel.displays (hc : CustomForward σ L) (ha : CustomAppends σ L) (mono : e.Mono) {p p' : Panel σ L} {s s' : Snapshot}
    {k k' : Nat} (h : p.putSnapshot d s e k = some ((p', s'), k')) :
    ∃ own, s' = s ++ own ∧ Displays (fun x : Snapshooter σ L => x.Put d e) d e k p.exhibits p.groups k' own := by
  match p with
  | .mk hd ps hs ss =>
    unfold Panel.putSnapshot at h
    simp only [M.bind_eq_some] at h
    obtain ⟨⟨g, lv⟩, k₀, h0, h⟩ := h
    obtain ⟨o0, rfl, d0, hg0⟩ := displays_head mono h0
    by_cases hg : g = true
    · simp only [hg, if_true, M.bind_eq_some, M.run_pure, Option.some.injEq, Prod.mk.injEq] at h
      obtain ⟨⟨a, s₁⟩, k₁, h1, ⟨b, s₂⟩, k₂, h2, ⟨c, s₃⟩, k₃, h3, ⟨f, s₄⟩, k₄, h4, ⟨rfl, rfl⟩, rfl⟩ := h
      have hn := PanelHead.putSlots_name _ _ _ _ _ _ _ h1
      obtain ⟨o1, rfl, d1⟩ := PanelHead.displays (σ := σ) mono h1
      obtain ⟨o2, rfl, d2⟩ := displaysPanels hc ha mono h2
      obtain ⟨o3, rfl, d3⟩ := displaysSnapshooters hc ha mono h3
      obtain ⟨o4, rfl, d4⟩ := displaysHandlers hc ha mono h4
      have hall := (((d0.append mono d1).append mono d2).append mono d3).append mono d4
      obtain ⟨own, heq, hfin⟩ := hall.level (into := s) hd.name (some hd.activity)
      refine ⟨own, ?_, ?_⟩
      · rw [← heq]; simp only at hn; simp [hn]
      · unfold Panel.exhibits Panel.groups
        simpa using hfin
    · have hgf : g = false := by simpa using hg
      subst hgf
      simp at h
      obtain ⟨⟨rfl, rfl⟩, rfl⟩ := h
      unfold Panel.exhibits Panel.groups
      obtain ⟨own, heq, hfin⟩ := Displays.hidden (into := s) hd.name hd.activity _ _ d0 (hg0 rfl)
      exact ⟨own, heq, hfin⟩

theorem displaysPanels (hc : CustomForward σ L) (ha : CustomAppends σ L) (mono : e.Mono) {ps ps' : List (Panel σ L)}
    {s s' : Snapshot} {k k' : Nat} (h : putPanels d ps s e k = some ((ps', s'), k')) :
    ∃ own, s' = s ++ own ∧
      Displays (fun x : Snapshooter σ L => x.Put d e) d e k (exhibitsOfPanels ps) (groupsOfPanels ps) k' own := by
  match ps with
  | [] =>
    unfold putPanels at h; simp at h; obtain ⟨⟨_, rfl⟩, rfl⟩ := h
    unfold exhibitsOfPanels groupsOfPanels; exact ⟨[], by simp, .nil (Nat.le_refl _)⟩
  | p :: ps =>
    unfold putPanels at h
    simp only [M.bind_eq_some, M.run_pure, Option.some.injEq, Prod.mk.injEq] at h
    obtain ⟨⟨a, s₁⟩, k₁, h1, ⟨b, s₂⟩, k₂, h2, ⟨rfl, rfl⟩, rfl⟩ := h
    obtain ⟨o1, rfl, d1⟩ := Panel.displays hc ha mono h1
    obtain ⟨o2, rfl, d2⟩ := displaysPanels hc ha mono h2
    unfold exhibitsOfPanels groupsOfPanels
    exact ⟨o1 ++ o2, by simp, d1.append mono d2⟩

theorem Handler.displays (hc : CustomForward σ L) (ha : CustomAppends σ L) (mono : e.Mono) {x x' : Handler σ L} {s s' : Snapshot}
    {k k' : Nat} (h : x.putSnapshot d s e k = some ((x', s'), k')) :
    ∃ own, s' = s ++ own ∧ Displays (fun x : Snapshooter σ L => x.Put d e) d e k x.exhibits x.groups k' own := by
  have hleaf : (Snapshooter.handler x).putSnapshot d s e k = some ((.handler x', s'), k') := by
    unfold Snapshooter.putSnapshot; rw [M.run_bind_some h]; rfl
  have hfwd := (x.fwd_putSnapshot hc d s).le h
  have happ := x.appends ha d s _ _ _ _ h
  match x with
  | .instrument a => unfold Handler.exhibits Handler.groups; exact Displays.leaf hfwd happ hleaf
  | .gauge a => unfold Handler.exhibits Handler.groups; exact Displays.leaf hfwd happ hleaf
  | .custom a => unfold Handler.exhibits Handler.groups; exact Displays.leaf hfwd happ hleaf
  | .panel p =>
    unfold Handler.putSnapshot at h
    simp only [M.bind_eq_some, M.run_pure, Option.some.injEq, Prod.mk.injEq] at h
    obtain ⟨⟨a', s₁⟩, k₁, h1, ⟨rfl, rfl⟩, rfl⟩ := h
    unfold Handler.exhibits Handler.groups
    exact Panel.displays hc ha mono h1
  | .cockpit hd ps hs ss =>
    unfold Handler.putSnapshot at h
    simp only [M.bind_eq_some] at h
    obtain ⟨⟨g, lv⟩, k₀, h0, h⟩ := h
    obtain ⟨o0, rfl, d0, hg0⟩ := displays_head mono h0
    by_cases hg : g = true
    · simp only [hg, if_true, M.bind_eq_some, M.run_pure, Option.some.injEq, Prod.mk.injEq] at h
      obtain ⟨⟨b, s₂⟩, k₂, h2, ⟨f, s₄⟩, k₄, h4, ⟨c, s₃⟩, k₃, h3, ⟨rfl, rfl⟩, rfl⟩ := h
      obtain ⟨o2, rfl, d2⟩ := displaysPanels hc ha mono h2
      obtain ⟨o4, rfl, d4⟩ := displaysHandlers hc ha mono h4
      obtain ⟨o3, rfl, d3⟩ := displaysSnapshooters hc ha mono h3
      have hall := ((d0.append mono d2).append mono d4).append mono d3
      obtain ⟨own, heq, hfin⟩ := hall.level (into := s) hd.name (some hd.activity)
      refine ⟨own, ?_, ?_⟩
      · rw [← heq]; simp
      · unfold Handler.exhibits Handler.groups
        simpa using hfin
    · have hgf : g = false := by simpa using hg
      subst hgf
      simp at h
      obtain ⟨⟨rfl, rfl⟩, rfl⟩ := h
      unfold Handler.exhibits Handler.groups
      obtain ⟨own, heq, hfin⟩ := Displays.hidden (into := s) hd.name hd.activity _ _ d0 (hg0 rfl)
      exact ⟨own, heq, hfin⟩

theorem displaysHandlers (hc : CustomForward σ L) (ha : CustomAppends σ L) (mono : e.Mono) {hs hs' : List (Handler σ L)}
    {s s' : Snapshot} {k k' : Nat} (h : putHandlers d hs s e k = some ((hs', s'), k')) :
    ∃ own, s' = s ++ own ∧
      Displays (fun x : Snapshooter σ L => x.Put d e) d e k (exhibitsOfHandlers hs) (groupsOfHandlers hs) k' own := by
  match hs with
  | [] =>
    unfold putHandlers at h; simp at h; obtain ⟨⟨_, rfl⟩, rfl⟩ := h
    unfold exhibitsOfHandlers groupsOfHandlers; exact ⟨[], by simp, .nil (Nat.le_refl _)⟩
  | p :: ps =>
    unfold putHandlers at h
    simp only [M.bind_eq_some, M.run_pure, Option.some.injEq, Prod.mk.injEq] at h
    obtain ⟨⟨a, s₁⟩, k₁, h1, ⟨b, s₂⟩, k₂, h2, ⟨rfl, rfl⟩, rfl⟩ := h
    obtain ⟨o1, rfl, d1⟩ := Handler.displays hc ha mono h1
    obtain ⟨o2, rfl, d2⟩ := displaysHandlers hc ha mono h2
    unfold exhibitsOfHandlers groupsOfHandlers
    exact ⟨o1 ++ o2, by simp, d1.append mono d2⟩

theorem Snapshooter.displays (hc : CustomForward σ L) (ha : CustomAppends σ L) (mono : e.Mono) {x x' : Snapshooter σ L}
    {s s' : Snapshot} {k k' : Nat} (h : x.putSnapshot d s e k = some ((x', s'), k')) :
    ∃ own, s' = s ++ own ∧ Displays (fun x : Snapshooter σ L => x.Put d e) d e k x.exhibits x.groups k' own := by
  have hfwd := (x.fwd_putSnapshot hc d s).le h
  have happ := x.appends ha d s _ _ _ _ h
  match x with
  | .constant _ _ _ => unfold Snapshooter.exhibits Snapshooter.groups; exact Displays.leaf hfwd happ h
  | .instrument _ => unfold Snapshooter.exhibits Snapshooter.groups; exact Displays.leaf hfwd happ h
  | .custom _ => unfold Snapshooter.exhibits Snapshooter.groups; exact Displays.leaf hfwd happ h
  | .handler y =>
    unfold Snapshooter.putSnapshot at h
    simp only [M.bind_eq_some, M.run_pure, Option.some.injEq, Prod.mk.injEq] at h
    obtain ⟨⟨a', s₁⟩, k₁, h1, ⟨rfl, rfl⟩, rfl⟩ := h
    unfold Snapshooter.exhibits Snapshooter.groups
    exact Handler.displays hc ha mono h1
  | .polling n ds cg poll =>
    unfold Snapshooter.putSnapshot at h
    unfold Snapshooter.exhibits Snapshooter.groups
    cases cg with
    | true =>
      simp only [if_true, M.bind_eq_some, M.run_pure, Option.some.injEq, Prod.mk.injEq] at h
      obtain ⟨⟨a', s₁⟩, k₁, h1, ⟨rfl, rfl⟩, rfl⟩ := h
      obtain ⟨o1, heq1, d1⟩ := Snapshooter.displays hc ha mono h1
      simp only [List.nil_append] at heq1
      subst heq1
      obtain ⟨own, heq, hfin⟩ := d1.level (into := s) (some n) none
      obtain ⟨texts, ht, hpost⟩ := Displays.postfixed (put := fun x : Snapshooter σ L => x.Put d e) (d := d) (e := e) mono
        (ds := ds) (n := n) (k := k) (k' := k₁) (s := s) (own := own)
        (ex := poll.exhibits.map (Exhibit.inside (some n) none)) (gs := groupsInside (some n) poll.groups)
      refine ⟨texts ++ own, ?_, hpost hfin⟩
      simp only [closeLevel, levelFor, List.nil_append, Snapshot.push, List.append_cancel_left_eq] at heq
      rw [ht, ← heq]; simp [Snapshot.push]
    | false =>
      simp only [Bool.false_eq_true, if_false, M.bind_eq_some, M.run_pure, Option.some.injEq, Prod.mk.injEq] at h
      obtain ⟨⟨a', s₁⟩, k₁, h1, ⟨rfl, rfl⟩, rfl⟩ := h
      obtain ⟨o1, rfl, d1⟩ := Snapshooter.displays hc ha mono h1
      obtain ⟨own, heq, hfin⟩ := d1.level (into := s) none none
      obtain ⟨texts, ht, hpost⟩ := Displays.postfixed (put := fun x : Snapshooter σ L => x.Put d e) (d := d) (e := e) mono
        (ds := ds) (n := n) (k := k) (k' := k₁) (s := s) (own := own)
        (ex := poll.exhibits.map (Exhibit.inside none none)) (gs := groupsInside none poll.groups)
      refine ⟨texts ++ own, ?_, hpost hfin⟩
      simp only [closeLevel, levelFor, List.append_cancel_left_eq] at heq
      rw [ht, ← heq]; simp

theorem displaysSnapshooters (hc : CustomForward σ L) (ha : CustomAppends σ L) (mono : e.Mono) {hs hs' : List (Snapshooter σ L)}
    {s s' : Snapshot} {k k' : Nat} (h : putSnapshooters d hs s e k = some ((hs', s'), k')) :
    ∃ own, s' = s ++ own ∧
      Displays (fun x : Snapshooter σ L => x.Put d e) d e k (exhibitsOfSnapshooters hs) (groupsOfSnapshooters hs) k' own := by
  match hs with
  | [] =>
    unfold putSnapshooters at h; simp at h; obtain ⟨⟨_, rfl⟩, rfl⟩ := h
    unfold exhibitsOfSnapshooters groupsOfSnapshooters; exact ⟨[], by simp, .nil (Nat.le_refl _)⟩
  | p :: ps =>
    unfold putSnapshooters at h
    simp only [M.bind_eq_some, M.run_pure, Option.some.injEq, Prod.mk.injEq] at h
    obtain ⟨⟨a, s₁⟩, k₁, h1, ⟨b, s₂⟩, k₂, h2, ⟨rfl, rfl⟩, rfl⟩ := h
    obtain ⟨o1, rfl, d1⟩ := Snapshooter.displays hc ha mono h1
    obtain ⟨o2, rfl, d2⟩ := displaysSnapshooters hc ha mono h2
    unfold exhibitsOfSnapshooters groupsOfSnapshooters
    exact ⟨o1 ++ o2, by simp, d1.append mono d2⟩
end

/-! ## Cockpits and processors -/

theorem Cockpit.displays (hc : CustomForward σ L) (ha : CustomAppends σ L) (mono : e.Mono) {c c' : Cockpit σ L}
    {s s' : Snapshot} {k k' : Nat} (h : c.putSnapshot s d e k = some ((c', s'), k')) :
    ∃ own, s' = s ++ own ∧ Displays (fun x : Snapshooter σ L => x.Put d e) d e k c.exhibits c.groups k' own := by
  refine Handler.displays (x := c.toHandler) (x' := c'.toHandler) hc ha mono ?_
  unfold Cockpit.putSnapshot at h
  unfold Cockpit.toHandler Handler.putSnapshot
  simp only [M.bind_eq_some] at h ⊢
  obtain ⟨⟨g, lv⟩, k₀, h0, h⟩ := h
  refine ⟨(g, lv), k₀, h0, ?_⟩
  by_cases hg : g = true
  · simp only [hg, if_true, M.bind_eq_some, M.run_pure, Option.some.injEq, Prod.mk.injEq] at h ⊢
    obtain ⟨⟨b, s₂⟩, k₂, h2, ⟨f, s₄⟩, k₄, h4, ⟨x, s₃⟩, k₃, h3, ⟨rfl, rfl⟩, rfl⟩ := h
    exact ⟨_, _, h2, _, _, h4, _, _, h3, ⟨rfl, rfl⟩, rfl⟩
  · have hgf : g = false := by simpa using hg
    subst hgf
    simp at h ⊢
    obtain ⟨⟨rfl, rfl⟩, rfl⟩ := h
    exact ⟨⟨⟨rfl, rfl, rfl, rfl⟩, rfl⟩, rfl⟩

theorem displaysCockpits (hc : CustomForward σ L) (ha : CustomAppends σ L) (mono : e.Mono) {cs cs' : List (Cockpit σ L)}
    {s s' : Snapshot} {k k' : Nat} (h : putCockpits d cs s e k = some ((cs', s'), k')) :
    ∃ own, s' = s ++ own ∧ Displays (fun x : Snapshooter σ L => x.Put d e) d e k (cs.map Cockpit.exhibits).flatten
      (cs.map Cockpit.groups).flatten k' own := by
  induction cs generalizing cs' s k with
  | nil =>
    simp [putCockpits] at h; obtain ⟨⟨_, rfl⟩, rfl⟩ := h
    exact ⟨[], by simp, .nil (Nat.le_refl _)⟩
  | cons c cs ih =>
    simp only [putCockpits, M.bind_eq_some, M.run_pure, Option.some.injEq, Prod.mk.injEq] at h
    obtain ⟨⟨a, s₁⟩, k₁, h1, ⟨b, s₂⟩, k₂, h2, ⟨rfl, rfl⟩, rfl⟩ := h
    obtain ⟨o1, rfl, d1⟩ := Cockpit.displays hc ha mono h1
    obtain ⟨o2, rfl, d2⟩ := ih h2
    exact ⟨o1 ++ o2, by simp, by simpa using d1.append mono d2⟩

theorem ProcessorState.displays (hc : CustomForward σ L) (ha : CustomAppends σ L) (mono : e.Mono) {p p' : ProcessorState σ L}
    {s s' : Snapshot} {k k' : Nat} (h : p.putSnapshot s d e k = some ((p', s'), k')) :
    ∃ own, s' = s ++ own ∧ Displays (fun x : Snapshooter σ L => x.Put d e) d e k p.exhibits p.groups k' own := by
  unfold ProcessorState.putSnapshot at h
  simp only [M.bind_eq_some] at h
  obtain ⟨⟨g, lv⟩, k₀, h0, h⟩ := h
  obtain ⟨o0, rfl, d0, hg0⟩ := displays_head mono h0
  by_cases hg : g = true
  · simp only [hg, if_true, M.bind_eq_some, M.run_pure, Option.some.injEq, Prod.mk.injEq] at h
    obtain ⟨⟨b, s₂⟩, k₂, h2, ⟨f, s₄⟩, k₄, h4, ⟨c, s₃⟩, k₃, h3, ⟨rfl, rfl⟩, rfl⟩ := h
    obtain ⟨o2, rfl, d2⟩ := displaysCockpits hc ha mono h2
    obtain ⟨o4, rfl, d4⟩ := displaysHandlers hc ha mono h4
    obtain ⟨o3, rfl, d3⟩ := displaysSnapshooters hc ha mono h3
    have hall := ((d0.append mono d2).append mono d4).append mono d3
    obtain ⟨own, heq, hfin⟩ := hall.level (into := s) p.name (some p.activity)
    refine ⟨own, ?_, ?_⟩
    · rw [← heq]; simp
    · unfold ProcessorState.exhibits ProcessorState.groups
      simpa using hfin
  · have hgf : g = false := by simpa using hg
    subst hgf
    simp at h
    obtain ⟨⟨rfl, rfl⟩, rfl⟩ := h
    unfold ProcessorState.exhibits ProcessorState.groups
    obtain ⟨own, heq, hfin⟩ := Displays.hidden (into := s) p.name p.activity _ _ d0 (hg0 rfl)
    exact ⟨own, heq, hfin⟩

/-! ## Mounts and drivers -/

variable [CustomProcessor σ]

theorem Displays.mounted {ex : List (Exhibit (Snapshooter σ L))} {gs : List (List String)} {k k' : Nat} {own : Snapshot}
    (h : Displays (fun x : Snapshooter σ L => x.Put d e) d e k ex gs k' own) :
    Displays (fun x : MountedThing σ L => x.Put d e) d e k (ex.map Exhibit.mounted) gs k' own := by
  refine ⟨h.le, fun x hx hs => ?_, fun hd path n i hx => ?_⟩
  · obtain ⟨y, hy, rfl⟩ := List.mem_map.mp hx
    exact h.shown y hy hs
  · rcases h.nothingElse hd path n i hx with ⟨x, hx, hrest⟩ | hrest
    · exact .inl ⟨_, List.mem_map_of_mem hx, hrest⟩
    · exact .inr hrest

/-- User defined components and processors append to the snapshot and do not turn back the clock. -/
structure CustomProper (σ L : Type) [Custom σ L] [CustomProcessor σ] : Prop where
  forward : CustomForward σ L
  appends : CustomAppends σ L
  processorForward : CustomProcessorForward σ
  processorAppends : CustomProcessorAppends σ

mutual
theorem Node.displays (hc : CustomProper σ L) (mono : e.Mono) {x x' : Node σ L} {s s' : Snapshot}
    {k k' : Nat} (h : x.putSnapshot d s e k = some ((x', s'), k')) :
    ∃ own, s' = s ++ own ∧ Displays (fun x : MountedThing σ L => x.Put d e) d e k x.exhibits x.groups k' own := by
  have hfwd := (x.fwd_putSnapshot hc.forward hc.processorForward d s).le h
  have happ := x.appends hc.appends hc.processorAppends d s _ _ _ _ h
  match x with
  | .driver as =>
    unfold Node.exhibits Node.groups
    unfold Node.putSnapshot at h
    simp only [M.run_pure, Option.some.injEq, Prod.mk.injEq] at h
    obtain ⟨⟨rfl, rfl⟩, rfl⟩ := h
    obtain ⟨own, hown⟩ := happ
    exact ⟨own, hown.symm, .one (Nat.le_refl _) ⟨s, hown.symm, Nat.le_refl _⟩⟩
  | .custom c =>
    unfold Node.exhibits Node.groups
    unfold Node.putSnapshot at h
    simp only [M.bind_eq_some, M.run_pure, Option.some.injEq, Prod.mk.injEq] at h
    obtain ⟨⟨a', s₁⟩, k₁, h1, ⟨rfl, rfl⟩, rfl⟩ := h
    obtain ⟨own, rfl⟩ := happ
    exact ⟨own, rfl, .one hfwd ⟨s, _, h1⟩⟩
  | .processor p =>
    unfold Node.putSnapshot Processor.putSnapshot at h
    simp only [M.bind_eq_some, M.run_pure, Option.some.injEq, Prod.mk.injEq] at h
    obtain ⟨_, _, ⟨⟨a', s₁⟩, k₁, h1, rfl, rfl⟩, ⟨rfl, rfl⟩, rfl⟩ := h
    unfold Node.exhibits Node.groups
    obtain ⟨own, rfl, d1⟩ := ProcessorState.displays hc.forward hc.appends mono h1
    exact ⟨own, rfl, d1.mounted⟩
  | .mount hd ns ss =>
    unfold Node.putSnapshot at h
    simp only [M.bind_eq_some] at h
    obtain ⟨⟨g, lv⟩, k₀, h0, h⟩ := h
    obtain ⟨o0, rfl, d0, hg0⟩ := displays_head mono h0
    by_cases hg : g = true
    · simp only [hg, if_true, M.bind_eq_some, M.run_pure, Option.some.injEq, Prod.mk.injEq] at h
      obtain ⟨⟨b, s₂⟩, k₂, h2, ⟨c, s₃⟩, k₃, h3, ⟨rfl, rfl⟩, rfl⟩ := h
      obtain ⟨o2, rfl, d2⟩ := displaysNodes hc mono h2
      obtain ⟨o3, rfl, d3⟩ := displaysSnapshooters hc.forward hc.appends mono h3
      have hall := (d0.append mono d2).append mono d3.mounted
      obtain ⟨own, heq, hfin⟩ := hall.level (into := s) hd.name (some hd.activity)
      refine ⟨own, ?_, ?_⟩
      · rw [← heq]; simp
      · unfold Node.exhibits Node.groups
        simpa using hfin
    · have hgf : g = false := by simpa using hg
      subst hgf
      simp at h
      obtain ⟨⟨rfl, rfl⟩, rfl⟩ := h
      unfold Node.exhibits Node.groups
      obtain ⟨own, heq, hfin⟩ := Displays.hidden (into := s) hd.name hd.activity _ _ d0 (hg0 rfl)
      exact ⟨own, heq, hfin⟩
  | .attached hd ns ss inbox =>
    unfold Node.putSnapshot at h
    simp only [M.bind_eq_some] at h
    obtain ⟨⟨g, lv⟩, k₀, h0, h⟩ := h
    obtain ⟨o0, rfl, d0, hg0⟩ := displays_head mono h0
    by_cases hg : g = true
    · simp only [hg, if_true, M.bind_eq_some, M.run_pure, Option.some.injEq, Prod.mk.injEq] at h
      obtain ⟨⟨b, s₂⟩, k₂, h2, ⟨c, s₃⟩, k₃, h3, ⟨rfl, rfl⟩, rfl⟩ := h
      obtain ⟨o2, rfl, d2⟩ := displaysNodes hc mono h2
      obtain ⟨o3, rfl, d3⟩ := displaysSnapshooters hc.forward hc.appends mono h3
      have hall := (d0.append mono d2).append mono d3.mounted
      obtain ⟨own, heq, hfin⟩ := hall.level (into := s) hd.name (some hd.activity)
      refine ⟨own, ?_, ?_⟩
      · rw [← heq]; simp
      · unfold Node.exhibits Node.groups
        simpa using hfin
    · have hgf : g = false := by simpa using hg
      subst hgf
      simp at h
      obtain ⟨⟨rfl, rfl⟩, rfl⟩ := h
      unfold Node.exhibits Node.groups
      obtain ⟨own, heq, hfin⟩ := Displays.hidden (into := s) hd.name hd.activity _ _ d0 (hg0 rfl)
      exact ⟨own, heq, hfin⟩

theorem displaysNodes (hc : CustomProper σ L) (mono : e.Mono) {ns ns' : List (Node σ L)}
    {s s' : Snapshot} {k k' : Nat} (h : putNodes d ns s e k = some ((ns', s'), k')) :
    ∃ own, s' = s ++ own ∧
      Displays (fun x : MountedThing σ L => x.Put d e) d e k (exhibitsOfNodes ns) (groupsOfNodes ns) k' own := by
  match ns with
  | [] =>
    unfold putNodes at h; simp at h; obtain ⟨⟨_, rfl⟩, rfl⟩ := h
    unfold exhibitsOfNodes groupsOfNodes; exact ⟨[], by simp, .nil (Nat.le_refl _)⟩
  | p :: ps =>
    unfold putNodes at h
    simp only [M.bind_eq_some, M.run_pure, Option.some.injEq, Prod.mk.injEq] at h
    obtain ⟨⟨a, s₁⟩, k₁, h1, ⟨b, s₂⟩, k₂, h2, ⟨rfl, rfl⟩, rfl⟩ := h
    obtain ⟨o1, rfl, d1⟩ := Node.displays hc mono h1
    obtain ⟨o2, rfl, d2⟩ := displaysNodes hc mono h2
    unfold exhibitsOfNodes groupsOfNodes
    exact ⟨o1 ++ o2, by simp, d1.append mono d2⟩
end

omit [Custom σ L] [CustomProcessor σ] in
theorem DriverInstruments.fwd_putSnapshot (i : DriverInstruments) (s : Snapshot) (d : Bool) : M.Fwd (i.putSnapshot s d) := by
  unfold DriverInstruments.putSnapshot
  refine .bind (Meter.fwd_putSnapshot _ _ _) fun _ => .bind (Histogram.fwd_putSnapshot _ _ _) fun _ =>
    .bind (Meter.fwd_putSnapshot _ _ _) fun _ => .bind (Histogram.fwd_putSnapshot _ _ _) fun _ =>
    .bind (Meter.fwd_putSnapshot _ _ _) fun _ => .bind (Histogram.fwd_putSnapshot _ _ _) fun _ =>
    .bind (Gauge.fwd_putSnapshot _ _ _) fun _ => .bind (Meter.fwd_putSnapshot _ _ _) fun _ =>
    .bind (Meter.fwd_putSnapshot _ _ _) fun _ => .bind (Histogram.fwd_putSnapshot _ _ _) fun _ =>
    .bind (fwd_timerPut _ _ _) fun _ => .bind (fwd_indicatorPut _ _ _) fun _ =>
    .bind (Gauge.fwd_putSnapshot _ _ _) fun _ => .bind (Histogram.fwd_putSnapshot _ _ _) fun _ => .pure _

theorem DriverInstruments.appends (i : DriverInstruments) (into : Snapshot) (d : Bool) : Appends into (i.putSnapshot into d) := by
  unfold DriverInstruments.putSnapshot
  refine .bindAny fun _ => .bindAny fun _ => .bindAny fun _ => .bindAny fun _ => .bindAny fun _ => .bindAny fun _ =>
    .bindAny fun _ => .bindAny fun _ => .bindAny fun _ => .bindAny fun _ => .bindAny fun _ => .bindAny fun _ =>
    .bindAny fun _ => .bindAny fun _ => .pure (prefix_push List.prefix_rfl _ _)

theorem DriverInstruments.fwd_updatePostSnapshot (i : DriverInstruments) (t : Int) : M.Fwd (i.updatePostSnapshot t) := by
  unfold DriverInstruments.updatePostSnapshot
  exact .bind .now fun _ => .bind (Meter.fwd_update _ _) fun _ => .bind (fwd_ofDuration _) fun _ =>
    .bind (Histogram.fwd_update _ _) fun _ => .pure _

theorem LoopState.displays_values (hc : CustomProper σ L) (mono : e.Mono) {l l' : LoopState σ L} {s s' : Snapshot} {t : Int}
    {k k' : Nat} (h : l.addSnapshotValues s d t e k = some ((l', s'), k')) :
    ∃ own, s' = s ++ own ∧ Displays (fun x : MountedThing σ L => x.Put d e) d e k
      (exhibitsOfNodes l.processors ++ (exhibitsOfSnapshooters l.snapshooters).map Exhibit.mounted ++
        (if l.metrics.isSome then [Exhibit.mk [] [] MountedThing.metrics] else []))
      (groupsOfNodes l.processors ++ groupsOfSnapshooters l.snapshooters) k' own := by
  unfold LoopState.addSnapshotValues at h
  simp only [M.bind_eq_some] at h
  obtain ⟨⟨b, s₂⟩, k₂, h2, ⟨c, s₃⟩, k₃, h3, h⟩ := h
  obtain ⟨o2, heq2, d2⟩ := displaysNodes hc mono h2
  obtain ⟨o3, heq3, d3⟩ := displaysSnapshooters hc.forward hc.appends mono h3
  obtain ⟨texts, ht⟩ := prefix_default l.descr s d
  simp only at heq2 heq3
  rw [← ht] at heq2
  have dt : Displays (fun x : MountedThing σ L => x.Put d e) d e k [] [] k texts := by
    refine .notes (Nat.le_refl _) fun hdf path n i hx => ?_
    subst hdf
    have : texts = [] := by simpa [putDefaultDescriptives] using ht
    subst this
    exact (Snapshot.not_hasAt_nil hx).elim
  have hall := (dt.append mono d2).append mono d3.mounted
  cases hm : l.metrics with
  | none =>
    simp only [hm, M.run_pure, Option.some.injEq, Prod.mk.injEq] at h
    obtain ⟨⟨rfl, rfl⟩, rfl⟩ := h
    refine ⟨texts ++ o2 ++ o3, by rw [heq3, heq2]; simp, ?_⟩
    simpa using hall
  | some i =>
    simp only [hm, M.bind_eq_some, M.run_pure, Option.some.injEq, Prod.mk.injEq] at h
    obtain ⟨i₁, k₄, h4, ⟨i₂, s₅⟩, k₅, h5, ⟨rfl, rfl⟩, rfl⟩ := h
    have f4 := (DriverInstruments.fwd_updatePostSnapshot _ _).le h4
    have f5 := (DriverInstruments.fwd_putSnapshot _ _ _).le h5
    obtain ⟨o5, heq5⟩ := DriverInstruments.appends _ _ _ _ _ _ _ h5
    simp only at heq5
    subst heq5
    have d5 : Displays (fun x : MountedThing σ L => x.Put d e) d e k₄ [⟨[], [], .metrics⟩] [] k₅ o5 :=
      .one f5 ⟨i₁, i₂, s₃, h5⟩
    have hfin := (hall.append mono (.nil f4)).append mono d5
    refine ⟨texts ++ o2 ++ o3 ++ o5, by rw [heq3, heq2]; simp, ?_⟩
    simpa using hfin

theorem LoopState.displays (hc : CustomProper σ L) (mono : e.Mono) {l l' : LoopState σ L} {s : Snapshot}
    {k k' : Nat} (h : l.makeSnapshot d e k = some ((l', s), k')) :
    Displays (fun x : MountedThing σ L => x.Put d e) d e k l.exhibits l.groups k' s := by
  unfold LoopState.makeSnapshot at h
  simp only [M.bind_eq_some, M.run_now, Option.some.injEq, Prod.mk.injEq] at h
  obtain ⟨t, _, ⟨rfl, rfl⟩, h⟩ := h
  have d0 : Displays (fun x : MountedThing σ L => x.Put d e) d e k [] [] (k + 1) [] := .nil (by omega)
  cases hn : l.name with
  | none =>
    simp only [hn] at h
    obtain ⟨own, rfl, d1⟩ := LoopState.displays_values hc mono h
    obtain ⟨own', heq, hfin⟩ := (d0.append mono d1).level (into := []) none none
    simp only [closeLevel, levelFor, List.nil_append] at heq
    subst heq
    simpa [LoopState.exhibits, LoopState.groups, hn] using hfin
  | some n =>
    simp only [hn, M.bind_eq_some, M.run_pure, Option.some.injEq, Prod.mk.injEq] at h
    obtain ⟨⟨l₁, lv⟩, k₁, h, ⟨rfl, rfl⟩, rfl⟩ := h
    obtain ⟨own, heq1, d1⟩ := LoopState.displays_values hc mono h
    simp only [List.nil_append] at heq1
    subst heq1
    obtain ⟨own', heq, hfin⟩ := (d0.append mono d1).level (into := []) (some n) none
    simp only [closeLevel, levelFor, List.nil_append, Snapshot.push] at heq
    subst heq
    simpa [LoopState.exhibits, LoopState.groups, hn] using hfin

end Metrix
