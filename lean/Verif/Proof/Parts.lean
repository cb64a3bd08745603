import Verif.Spec.Parts
import Verif.Proof.Processing
import Verif.Proof.LeafHistory
import Verif.Proof.ForwardRun

/-! # What happens to the parts of a processor -/

namespace Metrix

/-! ## Components that put snapshots -/

/-- Between the `k`-th and the `k'`-th reading of the clock the component stayed unchanged or put a snapshot. -/
def Rest {C A : Type} [Component C A] (e : Env) (k k' : Nat) (x y : C) : Prop :=
  y = x ∨ ∃ k₁ k₂ s s' d, k ≤ k₁ ∧ k₂ ≤ k' ∧ Component.putSnapshot x s d e k₁ = some ((y, s'), k₂)

theorem Rest.mono {C A : Type} [Component C A] {e : Env} {k k' j j' : Nat} {x y : C} (h : Rest e k k' x y) (hj : j ≤ k)
    (hj' : k' ≤ j') : Rest e j j' x y := by
  obtain h | ⟨k₁, k₂, s, s', d, a, b, c⟩ := h
  · exact .inl h
  · exact .inr ⟨k₁, k₂, s, s', d, by omega, by omega, c⟩

theorem Rest.refl {C A : Type} [Component C A] (e : Env) (k k' : Nat) (xs : List C) : List.Forall₂ (Rest e k k') xs xs := by
  induction xs with
  | nil => exact .nil
  | cons x xs ih => exact .cons (.inl rfl) ih

theorem forall₂_getElem? {A : Type} {R : A → A → Prop} {xs ys : List A} (h : List.Forall₂ R xs ys) {i : Nat} {x : A}
    (hx : xs[i]? = some x) : ∃ y, ys[i]? = some y ∧ R x y := by
  induction h generalizing i with
  | nil => simp at hx
  | cons h1 _ ih =>
    cases i with
    | zero => simp at hx ⊢; subst hx; exact h1
    | succ i => simpa using ih hx

theorem forall₂_filter {A : Type} {R : A → A → Prop} {p : A → Bool} (hp : ∀ x y, R x y → p y = p x) {xs ys : List A}
    (h : List.Forall₂ R xs ys) : List.Forall₂ R (xs.filter p) (ys.filter p) := by
  induction h with
  | nil => exact .nil
  | @cons x y xs ys h1 _ ih =>
    by_cases hx : p x = true
    · rw [List.filter_cons_of_pos hx, List.filter_cons_of_pos (by rw [hp _ _ h1]; exact hx)]; exact .cons h1 ih
    · rw [List.filter_cons_of_neg hx, List.filter_cons_of_neg (by rw [hp _ _ h1]; exact hx)]; exact ih

theorem forall₂_find? {A : Type} {R : A → A → Prop} {p : A → Bool} (hp : ∀ x y, R x y → p y = p x) {xs ys : List A}
    (h : List.Forall₂ R xs ys) {x : A} (hx : xs.find? p = some x) : ∃ y, ys.find? p = some y ∧ R x y := by
  rw [← List.head?_filter, List.head?_eq_getElem?] at hx
  obtain ⟨y, hy, hr⟩ := forall₂_getElem? (forall₂_filter hp h) hx
  exact ⟨y, by rw [← List.head?_filter, List.head?_eq_getElem?]; exact hy, hr⟩

variable {σ L : Type} [DecidableEq L] [Custom σ L]

theorem rest_handlers (hc : CustomForward σ L) {d : Bool} {hs hs' : List (Handler σ L)} {s s' : Snapshot} {e : Env}
    {k k' : Nat} (h : putHandlers d hs s e k = some ((hs', s'), k')) : List.Forall₂ (Rest e k k') hs hs' := by
  induction hs generalizing hs' s s' k with
  | nil => unfold putHandlers at h; simp at h; obtain ⟨⟨rfl, _⟩, _⟩ := h; exact .nil
  | cons x hs ih =>
    unfold putHandlers at h
    simp only [M.bind_eq_some, M.run_pure, Option.some.injEq, Prod.mk.injEq] at h
    obtain ⟨⟨a, s₁⟩, k₁, h1, ⟨b, s₂⟩, k₂, h2, ⟨rfl, rfl⟩, rfl⟩ := h
    have f1 := (x.fwd_putSnapshot hc d _).le h1
    have f2 := (fwd_putHandlers hc d hs _).le h2
    exact .cons (.inr ⟨k, k₁, s, s₁, d, Nat.le_refl _, f2, h1⟩)
      ((ih h2).imp fun _ _ h => h.mono f1 (Nat.le_refl _))

theorem rest_cockpits (hc : CustomForward σ L) {d : Bool} {cs cs' : List (Cockpit σ L)} {s s' : Snapshot} {e : Env}
    {k k' : Nat} (h : putCockpits d cs s e k = some ((cs', s'), k')) : List.Forall₂ (Rest e k k') cs cs' := by
  induction cs generalizing cs' s s' k with
  | nil => simp [putCockpits] at h; obtain ⟨⟨rfl, _⟩, _⟩ := h; exact .nil
  | cons x cs ih =>
    simp only [putCockpits, M.bind_eq_some, M.run_pure, Option.some.injEq, Prod.mk.injEq] at h
    obtain ⟨⟨a, s₁⟩, k₁, h1, ⟨b, s₂⟩, k₂, h2, ⟨rfl, rfl⟩, rfl⟩ := h
    have f1 := (x.fwd_putSnapshot hc s d).le h1
    have f2 := (fwd_putCockpits hc d cs _).le h2
    exact .cons (.inr ⟨k, k₁, s, s₁, d, Nat.le_refl _, f2, h1⟩)
      ((ih h2).imp fun _ _ h => h.mono f1 (Nat.le_refl _))

/-- A snapshot of a processor. -/
theorem ProcessorState.rest (hc : CustomForward σ L) {d : Bool} {s s' : ProcessorState σ L} {into into' : Snapshot}
    {e : Env} {k k' : Nat} (h : s.putSnapshot into d e k = some ((s', into'), k')) :
    List.Forall₂ (Rest e k k') s.handlers s'.handlers ∧ List.Forall₂ (Rest e k k') s.cockpits s'.cockpits ∧ k ≤ k' := by
  have hk := (s.fwd_putSnapshot hc into d).le h
  unfold ProcessorState.putSnapshot at h
  simp only [M.bind_eq_some] at h
  obtain ⟨⟨g, lv⟩, k₀, h0, h⟩ := h
  have f0 := (Activity.fwd_putFlags _ _).le h0
  by_cases hg : g = true
  · simp only [hg, if_true, M.bind_eq_some, M.run_pure, Option.some.injEq, Prod.mk.injEq] at h
    obtain ⟨⟨b, s₂⟩, k₂, h2, ⟨f, s₄⟩, k₄, h4, ⟨x, s₃⟩, k₃, h3, ⟨rfl, rfl⟩, rfl⟩ := h
    have f2 := (fwd_putCockpits hc d _ _).le h2
    have f3 := (fwd_putSnapshooters hc d _ _).le h3
    have f4 := (fwd_putHandlers hc d _ _).le h4
    exact ⟨(rest_handlers hc h4).imp fun _ _ h => h.mono (by omega) (by omega),
      (rest_cockpits hc h2).imp fun _ _ h => h.mono (by omega) (by omega), hk⟩
  · simp only [hg] at h
    simp at h
    obtain ⟨⟨rfl, rfl⟩, rfl⟩ := h
    exact ⟨Rest.refl _ _ _ _, Rest.refl _ _ _ _, hk⟩

omit [DecidableEq L] in
theorem Cockpit.put_name {d : Bool} {c c' : Cockpit σ L} {s s' : Snapshot} {e : Env} {k k' : Nat}
    (h : c.putSnapshot s d e k = some ((c', s'), k')) : c'.head = c.head := by
  unfold Cockpit.putSnapshot at h
  simp only [M.bind_eq_some] at h
  obtain ⟨⟨g, lv⟩, k₀, h0, h⟩ := h
  by_cases hg : g = true
  · simp only [hg, if_true, M.bind_eq_some, M.run_pure, Option.some.injEq, Prod.mk.injEq] at h
    obtain ⟨⟨b, s₂⟩, k₂, h2, ⟨f, s₄⟩, k₄, h4, ⟨x, s₃⟩, k₃, h3, ⟨rfl, rfl⟩, rfl⟩ := h
    rfl
  · simp only [hg] at h
    simp at h
    obtain ⟨⟨rfl, rfl⟩, rfl⟩ := h
    rfl

theorem rest_name {e : Env} {k k' : Nat} {c c' : Cockpit σ L} (h : Rest e k k' c c') : c'.name = c.name := by
  obtain rfl | ⟨k₁, k₂, s, s', d, _, _, h⟩ := h
  · rfl
  · simp only [Cockpit.name, Cockpit.put_name (c := c) h]

theorem Cockpit.handle_name {o : Observation L} {c c' : Cockpit σ L} {n : Nat} {e : Env} {k k' : Nat}
    (h : c.handle o e k = some ((c', n), k')) : c'.name = c.name := by
  have := Cockpit.handle_shape h
  simp only [Cockpit.shape, Shape.cockpit.injEq] at this
  exact this.1

/-! ## Components that take observations -/

/-- The component took the observation. -/
def Took1 {C : Type} [Component C (Observation L)] (e : Env) (o : Observation L) (k k' : Nat) (x y : C) : Prop :=
  ∃ k₁ k₂ n, k ≤ k₁ ∧ k₂ ≤ k' ∧ Component.take x o e k₁ = some ((y, n), k₂)

omit [Custom σ L] [DecidableEq L] in
theorem Handles.le {C : Type} [Component C (Observation L)] {e : Env} {o : Observation L} {xs xs' : List C}
    {ns : List Nat} {k k' : Nat} (hf : ∀ x : C, M.Fwd (Component.take x o)) (h : Handles e o k xs ns k' xs') : k ≤ k' := by
  induction h with
  | nil => exact Nat.le_refl _
  | cons h1 _ ih => exact Nat.le_trans ((hf _).le h1) ih

omit [Custom σ L] [DecidableEq L] in
theorem Handles.each {C : Type} [Component C (Observation L)] {e : Env} {o : Observation L} {xs xs' : List C}
    {ns : List Nat} {k k' : Nat} (hf : ∀ x : C, M.Fwd (Component.take x o)) (h : Handles e o k xs ns k' xs') :
    List.Forall₂ (Took1 e o k k') xs xs' := by
  induction h with
  | nil => exact .nil
  | cons h1 h2 ih =>
    have f1 := (hf _).le h1
    have f2 := h2.le hf
    exact .cons ⟨_, _, _, Nat.le_refl _, f2, h1⟩
      (ih.imp fun _ _ ⟨k₁, k₂, n, a, b, c⟩ => ⟨k₁, k₂, n, by omega, b, c⟩)

theorem Handler.fwd_take (hc : CustomForward σ L) (o : Observation L) (x : Handler σ L) : M.Fwd (Component.take x o) := by
  constructor
  intro e k r k' h
  have : Metrix.dispatch o x.leaves e k = some ((r.1.leaves, r.2), k') := by
    rw [Handler.dispatch]; exact M.run_bind_some (a := r) h
  exact (fwd_dispatch hc o _).le this

theorem Cockpit.fwd_take (hc : CustomForward σ L) (o : Observation L) (x : Cockpit σ L) : M.Fwd (Component.take x o) := by
  constructor
  intro e k r k' h
  have : Metrix.dispatch o x.leaves e k = some ((r.1.leaves, r.2), k') := by
    rw [Cockpit.dispatch]; exact M.run_bind_some (a := r) h
  exact (fwd_dispatch hc o _).le this

theorem took_name {e : Env} {o : Observation L} {k k' : Nat} {c c' : Cockpit σ L} (h : Took1 e o k k' c c') :
    c'.name = c.name := by
  obtain ⟨k₁, k₂, n, _, _, h⟩ := h
  exact Cockpit.handle_name h

/-- Messages are applied while the clock goes forward. -/
theorem Applied.le (hc : CustomForward σ L) {e : Env} {keeps : Observation L → Prop} {k k' : Nat}
    {s s' : ProcessorState σ L} {m : Message σ L} {v : Verdict} (h : Applied e keeps k s m v k' s') : k ≤ k' := by
  cases h with
  | processed _ h1 h2 => exact Nat.le_trans (h1.le (Cockpit.fwd_take hc _)) (h2.le (Handler.fwd_take hc _))
  | dropped _ => exact Nat.le_refl _
  | config _ => exact Nat.le_refl _

theorem Applies.le (hc : CustomForward σ L) {e : Env} {keeps : Observation L → Prop} {k k' : Nat}
    {s s' : ProcessorState σ L} {ms : List (Message σ L × Verdict)} (h : Applies e keeps k s ms k' s') : k ≤ k' := by
  induction h with
  | nil => exact Nat.le_refl _
  | cons h1 _ ih => exact Nat.le_trans (h1.le hc) ih

/-! ## Parts of processors -/

section
variable {D B : Type} [Component D B]

theorem History.weaken {e : Env} {k k₀ k' : Nat} {d d' : D} {log : List (Event B)} (h : History e k d log k' d')
    (hk : k₀ ≤ k) : History e k₀ d log k' d' := by
  cases h with
  | nil h => exact .nil (Nat.le_trans hk h)
  | cons h1 h2 h3 => exact .cons (Nat.le_trans hk h1) h2 h3

/-- A part of a processor: `get` finds it, `f` tells which messages reach it, `P` excludes messages that remove it. -/
structure Part (e : Env) (get : ProcessorState σ L → Option D) (f : Message σ L × Verdict → Option B)
    (P : Message σ L × Verdict → Prop) : Prop where
  applied : ∀ keeps s m v s' k k' d, Applied e keeps k s m v k' s' → P (m, v) → get s = some d →
    match (generalizing := false) f (m, v) with
    | none => get s' = some d
    | some b => ∃ k₁ k₂ d' n, k ≤ k₁ ∧ k₂ ≤ k' ∧ Component.take d b e k₁ = some ((d', n), k₂) ∧ get s' = some d'
  active : ∀ s t, get (s.activeAt t) = get s
  put : ∀ s into b s' into' k k' d, s.putSnapshot into b e k = some ((s', into'), k') → get s = some d →
    ∃ d', get s' = some d' ∧ Rest e k k' d d'
  set : ∀ s c d, get s = some d → get (s.set c) = some d

theorem rest_history {e : Env} {k k' : Nat} {d d' : D} (h : Rest e k k' d d') (hk : k ≤ k') :
    ∃ log, History e k d log k' d' ∧ inputs log = [] := by
  obtain rfl | ⟨k₁, k₂, s, s', b, h1, h2, h3⟩ := h
  · exact ⟨[], .nil hk, rfl⟩
  · exact ⟨[⟨k₁, .snapshot s b, .snapshot s', k₂⟩],
      .cons h1 (step_snapshot_eq_some.mpr ⟨s', rfl, h3⟩) (.nil h2), rfl⟩

/-- The history of a part of a processor. -/
theorem Trail.part (hc : CustomForward σ L) {e : Env} {get : ProcessorState σ L → Option D}
    {f : Message σ L × Verdict → Option B} {P : Message σ L × Verdict → Prop} (hp : Part e get f P)
    {k k' : Nat} {s s' : ProcessorState σ L} {ms : List (Message σ L × Verdict)}
    (h : Trail e k s ms k' s') (hP : ∀ m ∈ ms, P m) {d : D} (hd : get s = some d) :
    ∃ log' d', History e k d log' k' d' ∧ get s' = some d' ∧ inputs log' = ms.filterMap f := by
  induction h generalizing d with
  | nil hk => exact ⟨[], d, .nil hk, hd, rfl⟩
  | @message k k₁ k₂ k' s s₁ s' m v ms start strategy hk h1 h2 ih =>
    have hle := h1.le hc
    have := hp.applied _ _ _ _ _ _ _ _ h1 (hP _ (by simp)) hd
    have ih := fun {d : D} => ih (d := d) (fun x hx => hP x (List.mem_cons_of_mem _ hx))
    cases hf : f (m, v) with
    | none =>
      simp only [hf] at this
      obtain ⟨log, d', a, b, c⟩ := ih this
      exact ⟨log, d', a.weaken (by omega), b, by simp [c, hf]⟩
    | some b =>
      simp only [hf] at this
      obtain ⟨j₁, j₂, d₁, n, a1, a2, a3, a4⟩ := this
      obtain ⟨log, d', a, b', c⟩ := ih a4
      exact ⟨⟨j₁, .input b, .updated n, j₂⟩ :: log, d',
        .cons (by omega) (step_input_eq_some.mpr ⟨n, rfl, a3⟩) (a.weaken a2), b', by simp [inputs, c, hf]⟩
  | @active k k' s s' ms t _ ih => exact ih hP (by rw [hp.active]; exact hd)
  | @snapshot k k₁ k₂ k' s s₁ s' into b into' ms hk hput hst ih =>
    obtain ⟨d₁, hg, hr⟩ := hp.put _ _ _ _ _ _ _ _ hput hd
    obtain ⟨l₁, h1, h2⟩ := rest_history hr (ProcessorState.rest hc hput).2.2
    obtain ⟨l₂, d₂, h4, h5, h6⟩ := ih hP hg
    exact ⟨l₁ ++ l₂, d₂, (h1.weaken hk).append h4, h5, by rw [inputs_append, h2, h6]; simp⟩
  | @set k k' s s' c ms _ ih => exact ih hP (hp.set _ c _ hd)

end

/-! ## Handlers -/

theorem handler_part (hc : CustomForward σ L) (e : Env) (i : Nat) :
    Part (σ := σ) (L := L) e (fun s => s.handlers[i]?) processedObservation (fun _ => True) where
  applied := by
    intro keeps s m v s' k k' d h _ hd
    cases h with
    | processed hk h1 h2 =>
      obtain ⟨d', hd', k₁, k₂, n, a, b, c⟩ := forall₂_getElem? (h2.each (Handler.fwd_take hc _)) hd
      exact ⟨k₁, k₂, d', n, Nat.le_trans (h1.le (Cockpit.fwd_take hc _)) a, b, c, hd'⟩
    | dropped _ => exact hd
    | config hm =>
      have hlt : i < s.handlers.length := (List.getElem?_eq_some_iff.mp hd).1
      cases m with
      | observation o => exact hm.elim
      | addCockpit c => simp only [processedObservation, ProcessorState.configured]; split <;> exact hd
      | removeCockpit n => exact hd
      | addHandler x =>
        simp only [processedObservation, ProcessorState.configured]
        rw [List.getElem?_append_left hlt]; exact hd
      | addPanelToCockpit n p => simp only [processedObservation, ProcessorState.configured]; split <;> exact hd
      | removePanelFromCockpit n p => simp only [processedObservation, ProcessorState.configured]; split <;> exact hd
  active := fun _ _ => rfl
  put := by
    intro s into b s' into' k k' d h hd
    obtain ⟨d', hd', hr⟩ := forall₂_getElem? (ProcessorState.rest hc h).1 hd
    exact ⟨d', hd', hr⟩
  set := by
    intro s c d hd
    have hlt : i < s.handlers.length := (List.getElem?_eq_some_iff.mp hd).1
    cases c with
    | addCockpit c =>
      simp only [ProcessorState.set]; rw [addCockpit_eq]
      simp only [ProcessorState.configured]; split <;> exact hd
    | addHandler x =>
      simp only [ProcessorState.set, ProcessorState.addHandler]
      rw [List.getElem?_append_left hlt]; exact hd
    | _ => exact hd

/-! ## Cockpits -/

omit [DecidableEq L] [Custom σ L] in
theorem configured_addPanel (s : ProcessorState σ L) (n : String) (p : Panel σ L) :
    s.configured (.addPanelToCockpit n p) =
      { s with cockpits := ProcessorState.modifyFirst n (·.addPanel p) s.cockpits } := by
  rw [modifyFirst_eq]; simp only [ProcessorState.configured]
  cases s.cockpits.findIdx? (fun x => decide (x.name = some n)) <;> rfl

omit [DecidableEq L] [Custom σ L] in
theorem configured_removePanel (s : ProcessorState σ L) (n m : String) :
    s.configured (.removePanelFromCockpit n m) =
      { s with cockpits := ProcessorState.modifyFirst n (·.removePanel m) s.cockpits } := by
  rw [modifyFirst_eq]; simp only [ProcessorState.configured]
  cases s.cockpits.findIdx? (fun x => decide (x.name = some n)) <;> rfl

omit [DecidableEq L] [Custom σ L] in
theorem addPanel_name (c : Cockpit σ L) (p : Panel σ L) : (c.addPanel p).name = c.name := by
  unfold Cockpit.addPanel; split
  · split <;> rfl
  · rfl

omit [DecidableEq L] [Custom σ L] in
theorem find?_modifyFirst_same {n : String} {f : Cockpit σ L → Cockpit σ L} (hf : ∀ c, (f c).name = c.name)
    {cs : List (Cockpit σ L)} {c : Cockpit σ L} (h : cs.find? (fun c => decide (c.name = some n)) = some c) :
    (ProcessorState.modifyFirst n f cs).find? (fun c => decide (c.name = some n)) = some (f c) := by
  induction cs with
  | nil => simp at h
  | cons d cs ih =>
    by_cases hd : d.name = some n
    · simp [hd] at h; subst h; simp [ProcessorState.modifyFirst, hd, hf]
    · simp [hd] at h; simp [ProcessorState.modifyFirst, hd]; simpa using ih (by simpa using h)

omit [DecidableEq L] [Custom σ L] in
theorem filter_modifyFirst_other {n : String} {f : Cockpit σ L → Cockpit σ L} (hf : ∀ c, (f c).name = c.name)
    {q : Option String → Bool} (hq : q (some n) = false) (cs : List (Cockpit σ L)) :
    (ProcessorState.modifyFirst n f cs).filter (fun c => q c.name) = cs.filter (fun c => q c.name) := by
  induction cs with
  | nil => rfl
  | cons d cs ih =>
    by_cases hd : d.name = some n
    · simp [ProcessorState.modifyFirst, hd, hf, hq]
    · simp only [ProcessorState.modifyFirst, beq_iff_eq, hd, if_false, List.filter_cons, ih]

theorem managed_rest {e : Env} {k k' : Nat} {c c' : Cockpit σ L} (h : Rest e k k' c c') :
    Rest e k k' (ManagedCockpit.mk c) ⟨c'⟩ := by
  obtain rfl | ⟨k₁, k₂, s, s', d, h1, h2, h3⟩ := h
  · exact .inl rfl
  · exact .inr ⟨k₁, k₂, s, s', d, h1, h2, (M.run_bind_some h3 :)⟩

theorem managed_take {e : Env} {o : Observation L} {k k' : Nat} {c c' : Cockpit σ L} {n : Nat}
    (h : Component.take c o e k = some ((c', n), k')) :
    Component.take (ManagedCockpit.mk c) (.observe o) e k = some ((⟨c'⟩, n), k') := (M.run_bind_some h :)

theorem named_part (hc : CustomForward σ L) (e : Env) (name : String) :
    Part (σ := σ) (L := L) e (fun s => (s.named name).map ManagedCockpit.mk) (forCockpit (some name))
      (fun m => m.1 ≠ .removeCockpit name) where
  applied := by
    intro keeps s m v s' k k' d h hP hd0
    obtain ⟨c, hd, rfl⟩ := Option.map_eq_some_iff.mp hd0
    clear hd0
    cases h with
    | processed hk h1 h2 =>
      obtain ⟨c', hd', k₁, k₂, n, a, b, h⟩ := forall₂_find? (p := fun c : Cockpit σ L => decide (c.name = some name))
        (fun x y h => by rw [took_name h]) (h1.each (Cockpit.fwd_take hc _)) hd
      refine ⟨k₁, k₂, ⟨c'⟩, n, a, Nat.le_trans b (h2.le (Handler.fwd_take hc _)), managed_take h, ?_⟩
      simp [ProcessorState.named, hd']
    | dropped _ => simp [forCockpit, hd]
    | config hm =>
      cases m with
      | observation o => exact hm.elim
      | addCockpit c' =>
        simp only [forCockpit, ProcessorState.configured]
        split
        · simp [hd]
        · simp only [ProcessorState.named, List.find?_append] at hd ⊢; simp [hd]
      | removeCockpit n =>
        simp only [forCockpit, ProcessorState.configured, ProcessorState.named] at hd ⊢
        rw [List.find?_filter]
        have hne : n ≠ name := fun h => hP (by simp [h])
        rw [← Option.map_some, ← hd]
        congr 1
        congr 1
        funext x
        by_cases hx : x.name = some name
        · simp [hx, Ne.symm hne]
        · simp [hx]
      | addHandler x => simpa [forCockpit, ProcessorState.configured, ProcessorState.named] using hd
      | addPanelToCockpit n p =>
        simp only [forCockpit]
        rw [configured_addPanel]
        by_cases hn : n = name
        · subst hn
          rw [if_pos rfl]
          exact ⟨k, k, ⟨c.addPanel p⟩, 0, Nat.le_refl _, Nat.le_refl _, rfl, by
            simp only [ProcessorState.named] at hd ⊢
            rw [find?_modifyFirst_same (fun c => addPanel_name c p) hd]; rfl⟩
        · rw [if_neg (by simpa using hn)]
          simp only [ProcessorState.named, ← List.head?_filter] at hd ⊢
          rw [filter_modifyFirst_other (fun c => addPanel_name c p) (q := fun x => decide (x = some name))
            (by simpa using hn), hd]; rfl
      | removePanelFromCockpit n p =>
        simp only [forCockpit]
        rw [configured_removePanel]
        by_cases hn : n = name
        · subst hn
          rw [if_pos rfl]
          exact ⟨k, k, ⟨c.removePanel p⟩, 0, Nat.le_refl _, Nat.le_refl _, rfl, by
            simp only [ProcessorState.named] at hd ⊢
            rw [find?_modifyFirst_same (f := (·.removePanel p)) (fun c => rfl) hd]; rfl⟩
        · rw [if_neg (by simpa using hn)]
          simp only [ProcessorState.named, ← List.head?_filter] at hd ⊢
          rw [filter_modifyFirst_other (f := (·.removePanel p)) (fun c => rfl) (q := fun x => decide (x = some name))
            (by simpa using hn), hd]; rfl
  active := fun _ _ => rfl
  put := by
    intro s into b s' into' k k' d h hd0
    obtain ⟨c, hd, rfl⟩ := Option.map_eq_some_iff.mp hd0
    clear hd0
    obtain ⟨c', hd', hr⟩ := forall₂_find? (p := fun c : Cockpit σ L => decide (c.name = some name))
      (fun x y h => by rw [rest_name h]) (ProcessorState.rest hc h).2.1 hd
    exact ⟨⟨c'⟩, by simp [ProcessorState.named, hd'], managed_rest hr⟩
  set := by
    intro s c d hd
    cases c with
    | addCockpit c =>
      simp only [ProcessorState.set]; rw [addCockpit_eq]
      simp only [ProcessorState.configured]; split
      · exact hd
      · obtain ⟨c, hd', rfl⟩ := Option.map_eq_some_iff.mp hd
        clear hd; have hd := hd'; clear hd'
        simp only [ProcessorState.named, List.find?_append] at hd ⊢; simp [hd]
    | _ => exact hd

theorem unnamed_part (hc : CustomForward σ L) (e : Env) (i : Nat) :
    Part (σ := σ) (L := L) e (fun s => s.unnamed[i]?.map ManagedCockpit.mk) (forCockpit none) (fun _ => True) where
  applied := by
    intro keeps s m v s' k k' d h hP hd0
    obtain ⟨c, hd, rfl⟩ := Option.map_eq_some_iff.mp hd0
    clear hd0
    have hlt : i < s.unnamed.length := (List.getElem?_eq_some_iff.mp hd).1
    cases h with
    | processed hk h1 h2 =>
      obtain ⟨c', hd', k₁, k₂, n, a, b, h⟩ := forall₂_getElem? (forall₂_filter
        (p := fun c : Cockpit σ L => decide (c.name = none))
        (fun x y h => by rw [took_name h]) (h1.each (Cockpit.fwd_take hc _))) hd
      refine ⟨k₁, k₂, ⟨c'⟩, n, a, Nat.le_trans b (h2.le (Handler.fwd_take hc _)), managed_take h, ?_⟩
      simp [ProcessorState.unnamed, hd']
    | dropped _ => simp [forCockpit, hd]
    | config hm =>
      cases m with
      | observation o => exact hm.elim
      | addCockpit c' =>
        simp only [forCockpit, ProcessorState.configured]
        split
        · simp [hd]
        · simp only [ProcessorState.unnamed, List.filter_append] at hd hlt ⊢
          rw [List.getElem?_append_left hlt, hd]; rfl
      | removeCockpit n =>
        simp only [forCockpit, ProcessorState.configured, ProcessorState.unnamed] at hd ⊢
        rw [List.filter_filter]
        rw [show (s.cockpits.filter fun a => decide (a.name = none) && decide (a.name ≠ some n)) =
          s.cockpits.filter (·.name = none) from List.filter_congr fun x _ => by
            by_cases hx : x.name = none <;> simp [hx], hd]
        rfl
      | addHandler x => simpa [forCockpit, ProcessorState.configured, ProcessorState.unnamed] using hd
      | addPanelToCockpit n p =>
        simp only [forCockpit]
        rw [configured_addPanel, if_neg (by simp)]
        simp only [ProcessorState.unnamed] at hd ⊢
        rw [filter_modifyFirst_other (fun c => addPanel_name c p) (q := fun x => decide (x = none)) rfl, hd]; rfl
      | removePanelFromCockpit n p =>
        simp only [forCockpit]
        rw [configured_removePanel, if_neg (by simp)]
        simp only [ProcessorState.unnamed] at hd ⊢
        rw [filter_modifyFirst_other (f := (·.removePanel p)) (fun c => rfl) (q := fun x => decide (x = none)) rfl, hd]; rfl
  active := fun _ _ => rfl
  put := by
    intro s into b s' into' k k' d h hd0
    obtain ⟨c, hd, rfl⟩ := Option.map_eq_some_iff.mp hd0
    clear hd0
    obtain ⟨c', hd', hr⟩ := forall₂_getElem? (forall₂_filter (p := fun c : Cockpit σ L => decide (c.name = none))
      (fun x y h => by rw [rest_name h]) (ProcessorState.rest hc h).2.1) hd
    exact ⟨⟨c'⟩, by simp [ProcessorState.unnamed, hd'], managed_rest hr⟩
  set := by
    intro s c d hd
    cases c with
    | addCockpit c =>
      simp only [ProcessorState.set]; rw [addCockpit_eq]
      simp only [ProcessorState.configured]; split
      · exact hd
      · obtain ⟨c, hd', rfl⟩ := Option.map_eq_some_iff.mp hd
        clear hd; have hd := hd'; clear hd'
        have hlt : i < s.unnamed.length := (List.getElem?_eq_some_iff.mp hd).1
        simp only [ProcessorState.unnamed, List.filter_append] at hd hlt ⊢
        rw [List.getElem?_append_left hlt, hd]; rfl
    | _ => exact hd

/-! ## Handlers and panels of cockpits -/

/-- The observation, if it is one. -/
def CockpitInput.observation : CockpitInput σ L → Option (Observation L)
  | .observe o => some o
  | _ => none

theorem panels_handles {o : Observation L} {hs hs' : List (Panel σ L)} {n : Nat} {e : Env} {k k' : Nat}
    (h : handlePanels o hs e k = some ((hs', n), k')) : ∃ ns, Handles e o k hs ns k' hs' ∧ n = ns.sum := by
  induction hs generalizing hs' n k k' with
  | nil => unfold handlePanels at h; simp at h; obtain ⟨⟨rfl, rfl⟩, rfl⟩ := h; exact ⟨[], .nil, rfl⟩
  | cons c cs ih =>
    unfold handlePanels at h
    simp only [M.bind_eq_some, M.run_pure, Option.some.injEq, Prod.mk.injEq] at h
    obtain ⟨⟨c', _⟩, _, h1, ⟨cs', _⟩, _, h2, ⟨rfl, rfl⟩, rfl⟩ := h
    obtain ⟨ns, hns, rfl⟩ := ih h2
    exact ⟨_, .cons h1 hns, rfl⟩

theorem Panel.fwd_take (hc : CustomForward σ L) (o : Observation L) (x : Panel σ L) : M.Fwd (Component.take x o) := by
  constructor
  intro e k r k' h
  have : Metrix.dispatch o x.leaves e k = some ((r.1.leaves, r.2), k') := by
    rw [Panel.dispatch]; exact M.run_bind_some (a := r) h
  exact (fwd_dispatch hc o _).le this

theorem Panel.took_name {e : Env} {o : Observation L} {k k' : Nat} {c c' : Panel σ L} (h : Took1 e o k k' c c') :
    c'.name = c.name := by
  obtain ⟨k₁, k₂, n, _, _, h⟩ := h
  have := Panel.handle_shape (p := c) (p' := c') h
  obtain ⟨h, ps, hs, ss⟩ := c
  obtain ⟨h', ps', hs', ss'⟩ := c'
  unfold Panel.shape at this
  simp only [Shape.panel.injEq] at this
  exact this.2.1

theorem rest_panels (hc : CustomForward σ L) {d : Bool} {hs hs' : List (Panel σ L)} {s s' : Snapshot} {e : Env}
    {k k' : Nat} (h : putPanels d hs s e k = some ((hs', s'), k')) : List.Forall₂ (Rest e k k') hs hs' := by
  induction hs generalizing hs' s s' k with
  | nil => unfold putPanels at h; simp at h; obtain ⟨⟨rfl, _⟩, _⟩ := h; exact .nil
  | cons x hs ih =>
    unfold putPanels at h
    simp only [M.bind_eq_some, M.run_pure, Option.some.injEq, Prod.mk.injEq] at h
    obtain ⟨⟨a, s₁⟩, k₁, h1, ⟨b, s₂⟩, k₂, h2, ⟨rfl, rfl⟩, rfl⟩ := h
    have f1 := (x.fwd_putSnapshot hc d _).le h1
    have f2 := (fwd_putPanels hc d hs _).le h2
    exact .cons (.inr ⟨k, k₁, s, s₁, d, Nat.le_refl _, f2, h1⟩)
      ((ih h2).imp fun _ _ h => h.mono f1 (Nat.le_refl _))

omit [DecidableEq L] in
theorem PanelHead.put_name {h h' : PanelHead L} {d : Bool} {s s' : Snapshot} {e : Env} {k k' : Nat}
    (hh : h.putSlots s d e k = some ((h', s'), k')) : h'.name = h.name := by
  simp only [PanelHead.putSlots, M.bind_eq_some, M.run_pure, Option.some.injEq, Prod.mk.injEq] at hh
  obtain ⟨_, _, _, _, _, _, _, _, _, _, _, _, ⟨rfl, _⟩, _⟩ := hh
  rfl

theorem Panel.rest_name {e : Env} {k k' : Nat} {c c' : Panel σ L} (h : Rest e k k' c c') : c'.name = c.name := by
  obtain rfl | ⟨k₁, k₂, s, s', d, _, _, h⟩ := h
  · rfl
  · obtain ⟨hd, ps, hs, ss⟩ := c
    have h : Panel.putSnapshot d (.mk hd ps hs ss) s e k₁ = some ((c', s'), k₂) := h
    unfold Panel.putSnapshot at h
    simp only [M.bind_eq_some] at h
    obtain ⟨⟨g, lv⟩, k₀, h0, h⟩ := h
    by_cases hg : g = true
    · simp only [hg, if_true, M.bind_eq_some, M.run_pure, Option.some.injEq, Prod.mk.injEq] at h
      obtain ⟨⟨a, s₁⟩, k₁, h1, ⟨b, s₂⟩, k₂, h2, ⟨c, s₃⟩, k₃, h3, ⟨f, s₄⟩, k₄, h4, ⟨rfl, rfl⟩, rfl⟩ := h
      exact PanelHead.put_name h1
    · simp only [hg] at h
      simp at h
      obtain ⟨⟨rfl, rfl⟩, rfl⟩ := h
      rfl

/-- A snapshot of a cockpit. -/
theorem Cockpit.rest (hc : CustomForward σ L) {d : Bool} {c c' : Cockpit σ L} {s s' : Snapshot}
    {e : Env} {k k' : Nat} (h : c.putSnapshot s d e k = some ((c', s'), k')) :
    List.Forall₂ (Rest e k k') c.handlers c'.handlers ∧ List.Forall₂ (Rest e k k') c.panels c'.panels ∧ k ≤ k' := by
  have hk := (c.fwd_putSnapshot hc s d).le h
  unfold Cockpit.putSnapshot at h
  simp only [M.bind_eq_some] at h
  obtain ⟨⟨g, lv⟩, k₀, h0, h⟩ := h
  have f0 := (Activity.fwd_putFlags _ _).le h0
  by_cases hg : g = true
  · simp only [hg, if_true, M.bind_eq_some, M.run_pure, Option.some.injEq, Prod.mk.injEq] at h
    obtain ⟨⟨b, s₂⟩, k₂, h2, ⟨f, s₄⟩, k₄, h4, ⟨x, s₃⟩, k₃, h3, ⟨rfl, rfl⟩, rfl⟩ := h
    have f2 := (fwd_putPanels hc d _ _).le h2
    have f3 := (fwd_putSnapshooters hc d _ _).le h3
    have f4 := (fwd_putHandlers hc d _ _).le h4
    exact ⟨(rest_handlers hc h4).imp fun _ _ h => h.mono (by omega) (by omega),
      (rest_panels hc h2).imp fun _ _ h => h.mono (by omega) (by omega), hk⟩
  · simp only [hg] at h
    simp at h
    obtain ⟨⟨rfl, rfl⟩, rfl⟩ := h
    exact ⟨Rest.refl _ _ _ _, Rest.refl _ _ _ _, hk⟩

/-- An observation of a cockpit. -/
theorem Cockpit.took (hc : CustomForward σ L) {o : Observation L} {c c' : Cockpit σ L} {n : Nat} {e : Env} {k k' : Nat}
    (h : c.handle o e k = some ((c', n), k')) :
    List.Forall₂ (Took1 e o k k') c.handlers c'.handlers ∧ List.Forall₂ (Took1 e o k k') c.panels c'.panels := by
  simp only [Cockpit.handle, M.bind_eq_some, M.run_pure, Option.some.injEq, Prod.mk.injEq, M.run_now] at h
  obtain ⟨_, _, ⟨rfl, rfl⟩, ⟨hs, _⟩, _, h1, ⟨ps, _⟩, _, h2, ⟨rfl, rfl⟩, rfl⟩ := h
  obtain ⟨_, h1, _⟩ := handlers_handles h1
  obtain ⟨_, h2, _⟩ := panels_handles h2
  have f1 := h1.le (Handler.fwd_take hc _)
  have f2 := h2.le (Panel.fwd_take hc _)
  exact ⟨(h1.each (Handler.fwd_take hc _)).imp fun _ _ ⟨k₁, k₂, n, a, b, c⟩ => ⟨k₁, k₂, n, by omega, by omega, c⟩,
    (h2.each (Panel.fwd_take hc _)).imp fun _ _ ⟨k₁, k₂, n, a, b, c⟩ => ⟨k₁, k₂, n, by omega, by omega, c⟩⟩

theorem managed_put_inv {c c' : ManagedCockpit σ L} {s s' : Snapshot} {b : Bool} {e : Env} {k k' : Nat}
    (h : Component.putSnapshot c s b e k = some ((c', s'), k')) :
    c.cockpit.putSnapshot s b e k = some ((c'.cockpit, s'), k') := by
  simp only [Component.putSnapshot, M.bind_eq_some, M.run_pure, Option.some.injEq, Prod.mk.injEq] at h
  obtain ⟨⟨_, _⟩, _, h, ⟨rfl, rfl⟩, rfl⟩ := h
  exact h

theorem managed_take_inv {c c' : ManagedCockpit σ L} {i : CockpitInput σ L} {n : Nat} {e : Env} {k k' : Nat}
    (h : Component.take c i e k = some ((c', n), k')) :
    match (generalizing := false) i with
    | .observe o => c.cockpit.handle o e k = some ((c'.cockpit, n), k')
    | .addPanel p => c'.cockpit = c.cockpit.addPanel p ∧ k' = k
    | .removePanel m => c'.cockpit = c.cockpit.removePanel m ∧ k' = k := by
  cases i with
  | observe o =>
    simp only [Component.take, M.bind_eq_some, M.run_pure, Option.some.injEq, Prod.mk.injEq] at h
    obtain ⟨⟨_, _⟩, _, h, ⟨rfl, rfl⟩, rfl⟩ := h
    exact h
  | addPanel p => simp [Component.take] at h; obtain ⟨⟨rfl, _⟩, rfl⟩ := h; exact ⟨rfl, rfl⟩
  | removePanel p => simp [Component.take] at h; obtain ⟨⟨rfl, _⟩, rfl⟩ := h; exact ⟨rfl, rfl⟩

omit [DecidableEq L] [Custom σ L] in
theorem addPanel_handlers (c : Cockpit σ L) (p : Panel σ L) : (c.addPanel p).handlers = c.handlers := by
  unfold Cockpit.addPanel; split
  · split <;> rfl
  · rfl

omit [DecidableEq L] [Custom σ L] in
theorem addPanel_panels (c : Cockpit σ L) (p : Panel σ L) :
    (c.addPanel p).panels = c.panels ∨ (c.addPanel p).panels = c.panels ++ [p] := by
  unfold Cockpit.addPanel; split
  · split
    · exact .inl rfl
    · exact .inr rfl
  · exact .inr rfl

/-- The history of a handler of a cockpit. -/
theorem managed_handler (hc : CustomForward σ L) {e : Env} {k k' : Nat} {c c' : ManagedCockpit σ L}
    {log : List (Event (CockpitInput σ L))} (h : History e k c log k' c') {i : Nat} {x : Handler σ L}
    (hx : c.cockpit.handlers[i]? = some x) :
    ∃ log' x', History e k x log' k' x' ∧ c'.cockpit.handlers[i]? = some x' ∧
      inputs log' = (inputs log).filterMap CockpitInput.observation := by
  refine History.project (fun c : ManagedCockpit σ L => c.cockpit.handlers[i]?) CockpitInput.observation
    (fun _ => True) ?_ ?_ h (fun _ _ => trivial) hx
  · intro c a c' n k k' d ht _ hd
    have := managed_take_inv ht
    cases a with
    | observe o =>
      obtain ⟨d', hd', k₁, k₂, n, a, b, h⟩ := forall₂_getElem? (Cockpit.took hc this).1 hd
      exact ⟨k₁, k₂, d', n, a, b, h, hd'⟩
    | addPanel p =>
      obtain ⟨hc', rfl⟩ := this
      exact ⟨by rw [hc', addPanel_handlers]; exact hd, Nat.le_refl _⟩
    | removePanel p =>
      obtain ⟨hc', rfl⟩ := this
      exact ⟨by rw [hc']; exact hd, Nat.le_refl _⟩
  · intro c s b c' s' k k' d ht hd
    obtain ⟨h1, _, h3⟩ := Cockpit.rest hc (managed_put_inv ht)
    obtain ⟨d', hd', hr⟩ := forall₂_getElem? h1 hd
    rcases hr with rfl | ⟨k₁, k₂, s, s', d, a, b, h⟩
    · exact .inl ⟨hd', h3⟩
    · exact .inr ⟨k₁, k₂, d', s, s', d, a, b, h, hd'⟩

/-- The history of a panel of a cockpit. -/
theorem managed_panel (hc : CustomForward σ L) {e : Env} {k k' : Nat} {c c' : ManagedCockpit σ L}
    {log : List (Event (CockpitInput σ L))} (h : History e k c log k' c') {id : PanelId} {x : Panel σ L}
    (hx : c.cockpit.panelAt id = some x) (hP : ∀ a ∈ inputs log, ∀ m, a = .removePanel m → id ≠ .named m) :
    ∃ log' x', History e k x log' k' x' ∧ c'.cockpit.panelAt id = some x' ∧
      inputs log' = (inputs log).filterMap CockpitInput.observation := by
  refine History.project (fun c : ManagedCockpit σ L => c.cockpit.panelAt id) CockpitInput.observation
    (fun a => ∀ m, a = .removePanel m → id ≠ .named m) ?_ ?_ h hP hx
  · intro c a c' n k k' d ht hP hd
    have := managed_take_inv ht
    cases a with
    | observe o =>
      have h2 := (Cockpit.took hc this).2
      cases id with
      | named m =>
        obtain ⟨d', hd', k₁, k₂, n, a, b, h⟩ := forall₂_find?
          (p := fun c : Panel σ L => decide (c.name = some m)) (fun x y h => by rw [Panel.took_name h]) h2 hd
        exact ⟨k₁, k₂, d', n, a, b, h, hd'⟩
      | unnamed i =>
        obtain ⟨d', hd', k₁, k₂, n, a, b, h⟩ := forall₂_getElem? (forall₂_filter
          (p := fun c : Panel σ L => decide (c.name = none)) (fun x y h => by rw [Panel.took_name h]) h2) hd
        exact ⟨k₁, k₂, d', n, a, b, h, hd'⟩
    | addPanel p =>
      obtain ⟨hc', rfl⟩ := this
      refine ⟨?_, Nat.le_refl _⟩
      rcases addPanel_panels c.cockpit p with h | h
      · simp only [Cockpit.panelAt, hc', h] at hd ⊢; exact hd
      · simp only [Cockpit.panelAt, hc', h] at hd ⊢
        cases id with
        | named m => simp only [List.find?_append] at hd ⊢; rw [hd]; rfl
        | unnamed i =>
          simp only [List.filter_append] at hd ⊢
          rw [List.getElem?_append_left (List.getElem?_eq_some_iff.mp hd).1]; exact hd
    | removePanel p =>
      obtain ⟨hc', rfl⟩ := this
      refine ⟨?_, Nat.le_refl _⟩
      have hfil : (c.cockpit.removePanel p).panels = c.cockpit.panels.filter (·.name ≠ some p) := by
        simp only [Cockpit.removePanel]
        apply List.filter_congr
        intro q _
        cases q.name with
        | none => simp
        | some m => by_cases h : m = p <;> simp [h]
      simp only [Cockpit.panelAt, hc', hfil] at hd ⊢
      cases id with
      | named m =>
        have hne : m ≠ p := fun h => hP p rfl (by rw [h])
        simp only at hd ⊢
        rw [List.find?_filter, ← hd]
        congr 1
        funext x
        by_cases hx : x.name = some m
        · simp [hx, hne]
        · simp [hx]
      | unnamed i =>
        simp only at hd ⊢
        rw [List.filter_filter, ← hd]
        rw [show (c.cockpit.panels.filter fun a => decide (a.name = none) && decide (a.name ≠ some p)) =
          c.cockpit.panels.filter (·.name = none) from List.filter_congr fun x _ => by
            by_cases hx : x.name = none <;> simp [hx]]
  · intro c s b c' s' k k' d ht hd
    obtain ⟨_, h2, h3⟩ := Cockpit.rest hc (managed_put_inv ht)
    have : ∃ d', c'.cockpit.panelAt id = some d' ∧ Rest e k k' d d' := by
      cases id with
      | named m =>
        exact forall₂_find? (p := fun c : Panel σ L => decide (c.name = some m))
          (fun x y h => by rw [Panel.rest_name h]) h2 hd
      | unnamed i =>
        exact forall₂_getElem? (forall₂_filter
          (p := fun c : Panel σ L => decide (c.name = none)) (fun x y h => by rw [Panel.rest_name h]) h2) hd
    obtain ⟨d', hd', hr⟩ := this
    rcases hr with rfl | ⟨k₁, k₂, s, s', d, a, b, h⟩
    · exact .inl ⟨hd', h3⟩
    · exact .inr ⟨k₁, k₂, d', s, s', d, a, b, h, hd'⟩

/-! ## Leaves -/

omit [DecidableEq L] [Custom σ L] in
theorem observation_forCockpit (name : Option String) (ms : List (Message σ L × Verdict)) :
    (ms.filterMap (forCockpit name)).filterMap CockpitInput.observation = ms.filterMap processedObservation := by
  rw [List.filterMap_filterMap]
  congr 1
  funext m
  obtain ⟨m, v⟩ := m
  cases m <;> cases v <;> simp [forCockpit, processedObservation, CockpitInput.observation] <;> split <;> rfl

/-- The history of a cockpit of a processor. -/
theorem Trail.cockpit (hc : CustomForward σ L) {e : Env} {k k' : Nat} {s s' : ProcessorState σ L}
    {ms : List (Message σ L × Verdict)} (h : Trail e k s ms k' s') {id : CockpitId} {c : Cockpit σ L} (hx : s.cockpitAt id = some c)
    (hP : ∀ m ∈ ms, ∀ n, m.1 = .removeCockpit n → id ≠ .named n) :
    ∃ log' c', History e k (ManagedCockpit.mk c) log' k' ⟨c'⟩ ∧ s'.cockpitAt id = some c' ∧
      inputs log' = ms.filterMap (forCockpit id.name) := by
  cases id with
  | named n =>
    obtain ⟨log', ⟨c'⟩, h1, h2, h3⟩ := h.part hc (named_part hc e n) (fun m hm heq => hP m hm n heq rfl)
      (d := ⟨c⟩) (by simp only [ProcessorState.cockpitAt] at hx; simp [hx])
    exact ⟨log', c', h1, by simpa [ProcessorState.cockpitAt] using h2, h3⟩
  | unnamed i =>
    obtain ⟨log', ⟨c'⟩, h1, h2, h3⟩ := h.part hc (unnamed_part hc e i) (fun _ _ => trivial)
      (d := ⟨c⟩) (by simp only [ProcessorState.cockpitAt] at hx; simp [hx])
    exact ⟨log', c', h1, by simpa [ProcessorState.cockpitAt] using h2, h3⟩

/-- The history of a leaf anywhere in a processor. -/
theorem Trail.leaf (hc : CustomForward σ L) {e : Env} {k k' : Nat} {s s' : ProcessorState σ L}
    {ms : List (Message σ L × Verdict)} (h : Trail e k s ms k' s') {place : Place} {path : List (LabelFilter L)} {leaf : Leaf σ L}
    (hx : s.leafAt place = some (path, leaf)) (hP : ∀ m ∈ ms, ¬ place.RemovedBy m.1) :
    ∃ log' leaf', History e k leaf log' k' leaf' ∧ s'.leafAt place = some (path, leaf') ∧
      inputs log' = (ms.filterMap processedObservation).filter (passes path) := by
  cases place with
  | handler i j =>
    simp only [ProcessorState.leafAt, Option.bind_eq_some_iff] at hx ⊢
    obtain ⟨x, hx, hj⟩ := hx
    obtain ⟨l₁, x', h1, h2, h3⟩ := h.part hc (handler_part hc e i) (fun _ _ => trivial) hx
    obtain ⟨l₂, leaf', h4, h5, h6⟩ := Handler.leaf_history hc h1 hj
    exact ⟨l₂, leaf', h4, ⟨x', h2, h5⟩, by rw [h6, h3]⟩
  | cockpitHandler id i j =>
    simp only [ProcessorState.leafAt, Option.bind_eq_some_iff] at hx ⊢
    obtain ⟨c, hx, x, hi, hj⟩ := hx
    obtain ⟨l₁, c', h1, h2, h3⟩ := h.cockpit hc hx (fun m hm n heq hid => hP m hm (by
      simp [Place.RemovedBy, heq, hid]))
    obtain ⟨l₂, x', h4, h5, h6⟩ := managed_handler hc h1 hi
    obtain ⟨l₃, leaf', h7, h8, h9⟩ := Handler.leaf_history hc h4 hj
    exact ⟨l₃, leaf', h7, ⟨c', h2, x', h5, h8⟩, by rw [h9, h6, h3, observation_forCockpit]⟩
  | cockpitPanel id pid j =>
    simp only [ProcessorState.leafAt, Option.bind_eq_some_iff] at hx ⊢
    obtain ⟨c, hx, x, hi, hj⟩ := hx
    obtain ⟨l₁, c', h1, h2, h3⟩ := h.cockpit hc hx (fun m hm n heq hid => hP m hm (by
      simp [Place.RemovedBy, heq, hid]))
    obtain ⟨l₂, x', h4, h5, h6⟩ := managed_panel hc h1 hi (by
      intro a ha m hm hpid
      rw [h3] at ha
      obtain ⟨⟨msg, v⟩, hmem, hfor⟩ := List.mem_filterMap.mp ha
      refine hP _ hmem ?_
      subst hm
      cases msg with
      | removePanelFromCockpit n q =>
        simp only [forCockpit] at hfor
        split at hfor
        · rename_i hn
          simp at hfor; subst hfor
          cases id with
          | named n' => simp [CockpitId.name] at hn; simp [Place.RemovedBy, hn, hpid]
          | unnamed i => simp [CockpitId.name] at hn
        · cases hfor
      | observation o => cases v <;> simp [forCockpit] at hfor
      | addPanelToCockpit n q => simp only [forCockpit] at hfor; split at hfor <;> simp at hfor
      | _ => simp [forCockpit] at hfor)
    obtain ⟨l₃, leaf', h7, h8, h9⟩ := Panel.leaf_history hc h4 hj
    exact ⟨l₃, leaf', h7, ⟨c', h2, x', h5, h8⟩, by rw [h9, h6, h3, observation_forCockpit]⟩

end Metrix
