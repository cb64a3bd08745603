import Verif.Proof.Totals
import Verif.Props.C13
import Mathlib.Data.List.Perm.Subperm

/-! # What arrives at the instruments of a processor, whatever the queue and the runs -/

namespace Metrix
variable {σ L : Type} [DecidableEq L] [Custom σ L]

/-- What was taken from a new channel was sent by some thread, every message at most once. -/
theorem Took.subperm {c c' : Channel (Message σ L)} {ms : List (Message σ L)} (h : Took c c' ms)
    {cap : Option Nat} {useSend : Bool} {programs : List (SendThread (Message σ L))}
    (hnew : c = .fresh cap useSend programs) : ms.Subperm (programs.flatMap (·.todo)) := by
  obtain ⟨⟨as, hno, hacts⟩, l, hl, htaken⟩ := h
  have halive := life_alive hno hacts (by rw [hnew]; rfl)
  have hkept : c'.Kept := by
    rw [hacts] at halive ⊢
    refine Channel.acts_induction_alive (fun c a => Channel.kept_act c a) _ as halive ?_
    rw [hnew]; rfl
  have hempty : c.taken = [] := by rw [hnew]; rfl
  have hsrc : c'.taken = l := by rw [htaken, hempty]; simp
  have hprog : ∀ t, c'.sentBy t ++ c'.todo t = programOf programs t := by
    intro t
    rw [hacts, Channel.program_acts, hnew]
    simp [Channel.fresh, Channel.sentBy, Channel.todo, programOf]
    cases programs[t]? <;> rfl
  have hsub : ∀ t, (byThread t l).Sublist (programOf programs t) := by
    intro t
    refine List.Sublist.trans ?_ ((Channel.accepted_sublist c' t).trans (hprog t ▸ List.sublist_append_left _ _))
    unfold Channel.Kept at hkept
    rw [← hkept, Channel.byThread_append, hsrc]
    exact List.sublist_append_left _ _
  have hlt : ∀ x ∈ l, x.1 < programs.length := by
    intro x hx
    by_contra hge
    have h1 := hsub x.1
    have h2 : programOf programs x.1 = [] := by
      unfold programOf; rw [List.getElem?_eq_none (by omega)]
    rw [h2, List.sublist_nil] at h1
    have h3 : x.2 ∈ byThread x.1 l := List.mem_map.mpr ⟨x, List.mem_filter.mpr ⟨hx, by simp⟩, rfl⟩
    rw [h1] at h3
    simp at h3
  rw [← hl, ← programs_flatMap]
  refine (perm_byThread programs.length l hlt).subperm.trans (List.Sublist.subperm ?_)
  generalize List.range programs.length = ts
  induction ts with
  | nil => exact List.Sublist.slnil
  | cons t ts ih => rw [List.flatMap_cons, List.flatMap_cons]; exact (hsub t).append ih

omit [DecidableEq L] [Custom σ L] in
theorem processed_sublist (ms : List (Message σ L × Verdict)) :
    (ms.filterMap processedObservation).Sublist ((ms.map (·.1)).filterMap Message.observation?) := by
  induction ms with
  | nil => exact List.Sublist.slnil
  | cons m ms ih =>
    obtain ⟨m, v⟩ := m
    rw [List.map_cons, List.filterMap_cons, List.filterMap_cons]
    cases m with
    | observation o =>
      cases v with
      | processed n => exact ih.cons_cons _
      | dropped => exact ih.cons _
    | _ => exact ih

/-- The observations that arrive: one list for all places that are not removed. -/
theorem arrivals_from (hc : CustomForward σ L) {e : Env} {k k' : Nat} {p p' : Processor σ L} {log : List (Called σ L)}
    (h : Life e k p log k' p') :
    ∃ (ms : List (Message σ L)) (arrived : List (Observation L)), Took p.receiver.chan p'.receiver.chan ms ∧ arrived.Sublist (ms.filterMap Message.observation?) ∧
      ∀ place path leaf, p.state.leafAt place = some (path, leaf) → (∀ m ∈ ms, ¬ place.RemovedBy m) →
        ∃ log' leaf', History e k leaf log' k' leaf' ∧ p'.state.leafAt place = some (path, leaf') ∧
          inputs log' = arrived.filter fun o => path.all (·.accepts o.label) := by
  obtain ⟨consumed, hst, htook⟩ := life_story h
  refine ⟨_, consumed.flatten.filterMap processedObservation, htook, processed_sublist _, ?_⟩
  intro place path leaf hplace hrem
  exact Trail.leaf hc hst.trail hplace fun m hm => hrem m.1 (List.mem_map_of_mem hm)

end Metrix
