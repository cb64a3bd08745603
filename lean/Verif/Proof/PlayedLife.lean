import Verif.Proof.SafeRun
import Verif.Proof.Played

/-! # Concrete lives of processors with meters

Meters do not reduce in the kernel, so that concrete lives are shown to exist instead of being computed. -/

namespace Metrix
variable {σ L : Type} [DecidableEq L] [Custom σ L]

theorem Life.of_calls {e : Env} {k k' : Nat} {p p' : Processor σ L} {cs : List (Call σ L)} {rs : List Reply}
    (h : p.calls cs e k = some ((p', rs), k')) : ∃ log, Life e k p log k' p' ∧ log.map (·.call) = cs := by
  induction cs generalizing k p rs with
  | nil => cases h; exact ⟨[], .nil (Nat.le_refl _), rfl⟩
  | cons c cs ih =>
    obtain ⟨⟨p₁, r⟩, k₁, h1, h⟩ := M.bind_eq_some.mp h
    obtain ⟨⟨p₂, rs₂⟩, k₂, h2, h⟩ := M.bind_eq_some.mp h
    cases h
    obtain ⟨log, hl, hm⟩ := ih h2
    exact ⟨_ :: log, .cons (Nat.le_refl _) h1 hl, by simp [hm]⟩

/-- In release builds safe calls can be made. -/
theorem exists_life {e : Env} {safe : σ → Prop} (he : e.profile = .release) (hc : CustomSafe L e safe) {p : Processor σ L}
    (hp : AllSafe e safe p.instruments) (cs : List (Call σ L)) (hcs : ∀ c ∈ cs, c.Safe e safe) (k : Nat) :
    ∃ log k' p', Life e k p log k' p' ∧ log.map (·.call) = cs := by
  obtain ⟨⟨p', rs⟩, k', h, _⟩ := Processor.tot_calls he hc cs hcs p hp k
  obtain ⟨log, hl, hm⟩ := Life.of_calls h
  exact ⟨log, k', p', hl, hm⟩

end Metrix
