import Verif.Spec.Totals
import Verif.Proof.Parts

/-! # What instruments get altogether -/

namespace Metrix
variable {σ L : Type}

theorem perm_byThread {μ : Type} (n : Nat) (l : List (Nat × μ)) (h : ∀ x ∈ l, x.1 < n) :
    (l.map (·.2)).Perm ((List.range n).flatMap fun t => byThread t l) := by
  induction n generalizing l with
  | zero =>
    cases l with
    | nil => simp
    | cons x l => exact absurd (h x (by simp)) (by omega)
  | succ n ih =>
    have hp : (l.map (·.2)).Perm ((l.filter (fun x => !(x.1 == n))).map (·.2) ++ (l.filter (·.1 == n)).map (·.2)) := by
      rw [← List.map_append]
      refine List.Perm.map _ (.trans (List.filter_append_perm (·.1 == n) l).symm List.perm_append_comm)
    have h2 := ih (l.filter fun x => !(x.1 == n)) (by
      intro x hx
      obtain ⟨hx, hn⟩ := List.mem_filter.mp hx
      have := h x hx
      simp at hn
      omega)
    have h3 : ((List.range n).flatMap fun t => byThread t (l.filter fun x => !(x.1 == n))) =
        (List.range n).flatMap fun t => byThread t l := by
      refine List.flatMap_congr fun t ht => ?_
      have ht : t < n := by simpa using ht
      unfold byThread
      rw [List.filter_filter]
      congr 1
      refine List.filter_congr fun x _ => ?_
      by_cases hx : x.1 = t
      · have : x.1 ≠ n := by omega
        simp [hx]; omega
      · simp [hx]
    rw [List.range_succ, List.flatMap_append]
    refine hp.trans ?_
    rw [h3] at h2
    simpa [byThread] using h2.append_right _

theorem programs_flatMap {μ : Type} (programs : List (SendThread μ)) :
    (List.range programs.length).flatMap (fun t => match programs[t]? with | some th => th.todo | none => []) =
      programs.flatMap (·.todo) := by
  rw [List.flatMap_def, List.flatMap_def]
  congr 1
  apply List.ext_getElem
  · simp
  · intro i h1 h2
    simp at h1
    simp [h1]

variable [DecidableEq L] [Custom σ L]

/-- A leaf that is an instrument has the history of that instrument. -/
theorem leaf_instrument {I : Type} [IsInstrument I] (wrap : I → Instrument σ)
    (hup : ∀ i u, Instrument.update L (wrap i) u = (do let (i, n) ← IsInstrument.update i u; return (wrap i, n)))
    (hput : ∀ i s d, Instrument.putSnapshot L (wrap i) s d = (do let (i, n) ← IsInstrument.putSnapshot i s d; return (wrap i, n)))
    {e : Env} {k k' : Nat} {f : LabelFilter L} {i : I} {x : Leaf σ L} {log : List (Event (Observation L))}
    (h : History e k (Leaf.instrument ⟨f, wrap i, none⟩ : Leaf σ L) log k' x) :
    ∃ i' log', x = .instrument ⟨f, wrap i', none⟩ ∧ History e k i log' k' i' ∧
      inputs log' = ((inputs log).filter fun o => f.accepts o.label).map Observation.content := by
  generalize hx : (Leaf.instrument ⟨f, wrap i, none⟩ : Leaf σ L) = y at h
  induction h generalizing i with
  | nil hk => subst hx; exact ⟨i, [], rfl, .nil hk, rfl⟩
  | @cons k k₁ k₂ k' c c₁ c' op out log hk hs _ ih =>
    subst hx
    cases op with
    | input o =>
      obtain ⟨n, _, ht⟩ := step_input_eq_some.mp hs
      simp only [Component.take, Leaf.react, InstrumentAdapter.handle, UpdateModifier.modify] at ht
      by_cases hf : f.accepts o.label = true
      · simp only [hf, if_true, hup, M.bind_eq_some, M.run_pure, Option.some.injEq, Prod.mk.injEq] at ht
        obtain ⟨_, _, ⟨_, _, ⟨⟨i₁, m⟩, k₃, ht, rfl, rfl⟩, rfl, rfl⟩, ⟨rfl, rfl⟩, rfl⟩ := ht
        obtain ⟨i', log', h1, h3, h4⟩ := ih (i := i₁) rfl
        refine ⟨i', _, h1, .cons hk (step_input_eq_some.mpr ⟨m, rfl, ht⟩) h3, ?_⟩
        simp only [inputs, h4, List.filter_cons, hf, if_true, List.map_cons, o.toUpdate_eq]
      · simp only [hf, M.bind_eq_some, M.run_pure, Option.some.injEq, Prod.mk.injEq, Bool.false_eq_true, if_false] at ht
        obtain ⟨_, _, ⟨rfl, rfl⟩, ⟨rfl, rfl⟩, rfl⟩ := ht
        obtain ⟨i', log', h1, h3, h4⟩ := ih rfl
        refine ⟨i', log', h1, h3.weaken hk, ?_⟩
        simp only [inputs, h4, List.filter_cons, hf, Bool.false_eq_true, if_false]
    | snapshot s d =>
      obtain ⟨s', _, ht⟩ := step_snapshot_eq_some.mp hs
      simp only [Component.putSnapshot, Leaf.putSnapshot, InstrumentAdapter.putSnapshot, hput, M.bind_eq_some, M.run_pure,
        Option.some.injEq, Prod.mk.injEq] at ht
      obtain ⟨_, _, ⟨_, _, ⟨⟨i₁, m⟩, k₃, ht, rfl, rfl⟩, rfl, rfl⟩, ⟨rfl, rfl⟩, rfl⟩ := ht
      obtain ⟨i', log', h1, h3, h4⟩ := ih (i := i₁) rfl
      exact ⟨i', _, h1, .cons hk (step_snapshot_eq_some.mpr ⟨_, rfl, ht⟩) h3, by simpa [inputs] using h4⟩

end Metrix
