import Verif.Proof.Split
import Verif.Props.C101

/-!
# C104: one processor or several

A processor is split into several processors, which have its parts and get the same observations (`Verif.Spec.Split`).
-/

namespace Metrix
variable {σ L : Type} [DecidableEq L] [Custom σ L]

/-- What the split processors have become, as if nobody had looked in between. -/
theorem Share.Lived.plays (hc : CustomStill σ L) {e : Env} (mono : e.Mono) {hs : List (Happening σ L)} {n : Nat} {x : Share σ L}
    (h : x.Lived e hs n) (hrs : ∀ a ∈ hs, RingsOk a.instruments) :
    ∃ y, hs.foldlM (Happening.play e) (x.before.state, {}) =
        some (y, ⟨(totalsOf x.log).processed, (totalsOf x.log).dropped, (totalsOf x.log).updated⟩) ∧
      x.after.state.Alike e.rnd (e.clock n) y := by
  obtain ⟨y, h1, h2⟩ := h.happened.plays hc mono x.before.state {} n h.order hrs (moments_le h.bound) fun m _ => ProcessorState.alike_refl h.rings
  refine ⟨y, ?_, h2⟩
  rw [h1]
  simp only [Tally.plus, Nat.zero_add]

omit [DecidableEq L] in
theorem observed_rings {hs : List (Happening σ L)} (ho : ∀ a ∈ hs, a.Observes) : ∀ a ∈ hs, RingsOk a.instruments := by
  intro a ha
  match a, ho a ha with
  | .message _ _ (.observation _), _ => simp [Happening.instruments, Message.instruments, RingsOk]

/-- A processor gets observations. Several other processors, which have its parts, no name and no limit, get the same observations. Each of
them reports as many observations as processed and dropped as the one does, and the updated instruments add up to what the one reports. -/
theorem C104_totals (hc : CustomStill σ L) {e : Env} (mono : e.Mono) {p q : Processor σ L} {log : List (Nat × Call σ L × Reply)}
    {hs : List (Happening σ L)} (h : Happened e p log hs q) (ho : ∀ a ∈ hs, a.Observes) (hr : RingsOk p.state.instruments)
    (hl : MomentsInOrder log) {n : Nat} (hn : ∀ c ∈ log, c.1 ≤ n) {shares : List (Share σ L)} (hx : ∀ x ∈ shares, x.Lived e hs n)
    (hp : p.state.Reordered (p.state.gather (shares.map (·.before.state)))) :
    (∀ x ∈ shares, (totalsOf x.log).processed = (totalsOf log).processed ∧ (totalsOf x.log).dropped = (totalsOf log).dropped) ∧
      (totalsOf log).updated = (shares.map fun x => (totalsOf x.log).updated).sum := by
  have hrs := observed_rings ho
  obtain ⟨y, h2, _⟩ := h.plays hc mono p.state {} n hl hrs (moments_le hn) fun m _ => ProcessorState.alike_refl hr
  let z : Share σ L → ProcessorState σ L := fun x => ((hs.foldlM (Happening.play e) (x.before.state, {})).map (·.1)).getD x.before.state
  have h3 : ∀ x ∈ shares, hs.foldlM (Happening.play e) (x.before.state, {}) =
      some (z x, ⟨(totalsOf x.log).processed, (totalsOf x.log).dropped, (totalsOf x.log).updated⟩) := by
    intro x hx'
    obtain ⟨y, h4, _⟩ := (hx x hx').plays hc mono hrs
    simp only [z, h4]
    rfl
  obtain ⟨_, _, _, _, h5, h6⟩ := gather_plays hc hs ho (u := fun _ => {}) hp h2 h3
  simp only [Tally.plus, Nat.zero_add, Nat.add_zero] at h5 h6
  refine ⟨fun x hx' => ⟨(h5 x hx').1.symm, (h5 x hx').2.symm⟩, ?_⟩
  have : (shares.map fun _ => 0).sum = 0 := by simp
  omega

/-- A mount with these processors, which has the name of the one, shows what the one shows, in another order, or both panic. -/
theorem C104_snapshots [CustomProcessor σ] (hc : CustomStill σ L) (ha : CustomFrames σ L) {e : Env} (mono : e.Mono) {p q : Processor σ L}
    {log : List (Nat × Call σ L × Reply)} {hs : List (Happening σ L)} (h : Happened e p log hs q) (ho : ∀ a ∈ hs, a.Observes)
    (hr : RingsOk p.state.instruments) (hl : MomentsInOrder log) {n : Nat} (hn : ∀ c ∈ log, c.1 ≤ n) {shares : List (Share σ L)}
    (hx : ∀ x ∈ shares, x.Lived e hs n) (hp : p.state.Reordered (p.state.gather (shares.map (·.before.state))))
    (hu : p.state.activity.maxInactivity = none) {g : MountHead} (hg : g.name = p.state.name) (hgu : g.maxInactivity = none) (into : Snapshot) :
    Option.Rel Snapshot.Reordered ((q.putSnapshot into false (e.at n) 0).map (·.1.2))
      (((Node.mount g (shares.map fun x => .processor x.after) []).putSnapshot false into (e.at n) 0).map (·.1.2)) := by
  have hrs := observed_rings ho
  obtain ⟨y, h1, h2⟩ := h.plays hc mono p.state {} n hl hrs (moments_le hn) fun m _ => ProcessorState.alike_refl hr
  let z : Share σ L → ProcessorState σ L := fun x => ((hs.foldlM (Happening.play e) (x.before.state, {})).map (·.1)).getD x.before.state
  have h3 : ∀ x ∈ shares, hs.foldlM (Happening.play e) (x.before.state, {}) =
      some (z x, ⟨(totalsOf x.log).processed, (totalsOf x.log).dropped, (totalsOf x.log).updated⟩) ∧
        x.after.state.Alike e.rnd (e.clock n) (z x) := by
    intro x hx'
    obtain ⟨y, h4, h5⟩ := (hx x hx').plays hc mono hrs
    simp only [z, h4]
    exact ⟨rfl, h5⟩
  obtain ⟨s, h4, h5, h6, _⟩ := gather_plays hc hs ho (u := fun _ => {}) hp h1 fun x hx' => (h3 x hx').1
  rw [h2.shown hc]
  refine gather_shows (hc.at e n) ha (e.at_frozen n) h6 (h5.trans hu) hgu (hg.trans h4.symm)
    (fun x hx' => plays_plain hc ho (h3 x hx').1 (hx x hx').plain) ?_ into
  intro x hx' into
  have h7 := (h3 x hx').2.put (hc.at e n) (e.at_frozen n) into false
  intro k k'
  have h8 := h7 k k'
  unfold Processor.putSnapshot
  rw [M.run_bind]
  revert h8
  cases x.after.state.putSnapshot into false (e.at n) k <;> cases (z x).putSnapshot into false (e.at n) k' <;> intro h8
  · exact .none
  · cases h8
  · cases h8
  · cases h8 with
    | some h8 => exact .some h8.1

/-! ## An example -/

/-- The parts: two counters and a panel. -/
def splitX : Handler Empty Nat := .instrument (.new (.counter { name := "x" }))
def splitY : Handler Empty Nat := .instrument (.new (.counter { name := "y" }))
def splitPanel : Handler Empty Nat := .panel (roomyPanel false "a")

/-- A processor with some of them, and one observation in its queue. -/
def splitProcessor (name : Option String) (hs : List (Handler Empty Nat)) : Processor Empty Nat where
  state := { name := name, activity := ⟨0, none, true⟩, handlers := hs }
  receiver := { chan := { Channel.fresh (some 10) true [{ todo := [] }] with queue := [(0, .observation (.observedOneValue 1 (.signedInteger 5) 0))] } }

theorem split_happens {name : Option String} {hs : List (Handler Empty Nat)}
    (h : (callsAt Processor.call ticking (splitProcessor name hs) [(3, .process 6 .processAll)]).isSome) :
    ∃ p' log, (MomentsInOrder log ∧ (∀ c ∈ log, c.1 ≤ 3) ∧ log ≠ []) ∧ Happened ticking (splitProcessor name hs) log organisedHappenings p' := by
  obtain ⟨p', log, h1, h2⟩ := callsAt_spec h
  have calls : ∀ d ∈ log, d.1 = 3 ∧ ((∃ max, d.2.1 = .process max .processAll) ∨ d.2.1.IsSnapshot) := by
    intro d hd
    have : (d.1, d.2.1) ∈ log.map (fun c => (c.1, c.2.1)) := List.mem_map_of_mem hd
    rw [h2] at this
    simp only [List.mem_cons, Prod.mk.injEq, List.not_mem_nil, or_false] at this
    exact ⟨this.1, .inl ⟨6, this.2⟩⟩
  have sum : (log.map (·.2.1.polls)).sum = 6 := by
    have : log.map (·.2.1.polls) = (log.map (fun c => (c.1, c.2.1))).map (·.2.polls) := by rw [List.map_map]; rfl
    rw [this, h2]; rfl
  have := happened_quiet (p := splitProcessor name hs) rfl nofun calls h1
  rw [sum] at this
  refine ⟨p', log, ?_, this⟩
  obtain ⟨c, rfl⟩ := List.length_eq_one_iff.1 ((List.length_map _).symm.trans (congrArg List.length h2))
  simp only [List.map_cons, List.map_nil, List.cons.injEq, Prod.mk.injEq] at h2
  exact ⟨by simp [MomentsInOrder], by simp [h2.1.1], by simp⟩

/-- One processor with the three parts, and a mount with two processors that share them: the values are the same. -/
example : ∃ q log q₁ log₁ q₂ log₂, Happened ticking (splitProcessor (some "p") [splitX, splitY, splitPanel]) log organisedHappenings q ∧
    Happened ticking (splitProcessor none [splitY]) log₁ organisedHappenings q₁ ∧
    Happened ticking (splitProcessor none [splitX, splitPanel]) log₂ organisedHappenings q₂ ∧ log ≠ [] ∧
    (totalsOf log).updated = (totalsOf log₁).updated + (totalsOf log₂).updated ∧
    Option.Rel (fun s s' : Snapshot => (Snapshot.values [] s).Perm (Snapshot.values [] s'))
      ((q.putSnapshot [] false (ticking.at 3) 0).map (·.1.2))
      (((Node.mount { name := some "p", lastActivity := 0 } [.processor q₁, .processor q₂] []).putSnapshot false [] (ticking.at 3) 0).map (·.1.2)) := by
  obtain ⟨q, log, hl, h⟩ := split_happens (name := some "p") (hs := [splitX, splitY, splitPanel]) (by decide +kernel)
  obtain ⟨q₁, log₁, hl₁, h₁⟩ := split_happens (name := none) (hs := [splitY]) (by decide +kernel)
  obtain ⟨q₂, log₂, hl₂, h₂⟩ := split_happens (name := none) (hs := [splitX, splitPanel]) (by decide +kernel)
  have ho : ∀ a ∈ organisedHappenings, a.Observes := by simp [organisedHappenings, Happening.Observes]
  have r : RingsOk (splitProcessor (some "p") [splitX, splitY, splitPanel]).state.instruments := by
    rw [show (splitProcessor (some "p") [splitX, splitY, splitPanel]).state.instruments =
      [.counter { name := "x" }, .counter { name := "y" }, .counter { name := "n" }] from rfl]
    exact roomy_rings (by simp)
  have hx : ∀ x ∈ ([⟨splitProcessor none [splitY], log₁, q₁⟩, ⟨splitProcessor none [splitX, splitPanel], log₂, q₂⟩] : List (Share Empty Nat)),
      x.Lived ticking organisedHappenings 3 := by
    intro x hx
    simp only [List.mem_cons, List.not_mem_nil, or_false] at hx
    rcases hx with rfl | rfl
    · refine ⟨h₁, ⟨rfl, rfl⟩, ?_, hl₁.1, hl₁.2.1⟩
      rw [show (splitProcessor none [splitY]).state.instruments = [.counter { name := "y" }] from rfl]
      exact roomy_rings (by simp)
    · refine ⟨h₂, ⟨rfl, rfl⟩, ?_, hl₂.1, hl₂.2.1⟩
      rw [show (splitProcessor none [splitX, splitPanel]).state.instruments = [.counter { name := "x" }, .counter { name := "n" }] from rfl]
      exact roomy_rings (by simp)
  have hp : (splitProcessor (some "p") [splitX, splitY, splitPanel]).state.Reordered
      ((splitProcessor (some "p") [splitX, splitY, splitPanel]).state.gather
        (([⟨splitProcessor none [splitY], log₁, q₁⟩, ⟨splitProcessor none [splitX, splitPanel], log₂, q₂⟩] : List (Share Empty Nat)).map (·.before.state))) :=
    ⟨rfl, rfl, rfl, .nil, .swap (.refl _) (.refl _) (.refl _), .nil⟩
  have k1 := C104_totals emptyStill ticking_mono h ho r hl.1 hl.2.1 hx hp
  have k2 := C104_snapshots emptyStill emptyFrames ticking_mono h ho r hl.1 hl.2.1 hx hp rfl (g := { name := some "p", lastActivity := 0 }) rfl rfl []
  refine ⟨q, log, q₁, log₁, q₂, log₂, h, h₁, h₂, hl.2.2, by simpa using k1.2, ?_⟩
  revert k2
  simp only [List.map_cons, List.map_nil]
  generalize (q.putSnapshot [] false (ticking.at 3) 0).map (·.1.2) = a
  generalize Option.map _ _ = b
  intro k2
  cases k2 with
  | none => exact .none
  | some h => exact .some (C98_values h [])

end Metrix
