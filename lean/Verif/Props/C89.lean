import Verif.Proof.Happening
import Verif.Props.C47

/-!
# C89: it does not matter how the messages are divided into runs

`Happened e p log hs p'` (in `Verif.Spec.Happening`): the calls `log` were made on the processor `p`, `hs` says which messages were consumed
at which moments and how the owner configured the processor, but not by which calls.
-/

namespace Metrix
variable {σ L : Type} [DecidableEq L] [Custom σ L]

/-- Whatever is done with a processor, something happens to it. -/
theorem C89_happens {e : Env} {p p' : Processor σ L} {log : List (Nat × Call σ L × Reply)} (h : AtMoments Processor.call e p log p') :
    ∃ hs, Happened e p log hs p' := by
  induction h with
  | nil x => exact ⟨[], .nil _⟩
  | @cons x x₁ x' m k c r log hc _ ih =>
    obtain ⟨hs, ih⟩ := ih
    have other : (∀ m s, c ≠ .process m s) → (∀ i d, c ≠ .snapshot i d) → ∃ hs, Happened e x ((m, c, r) :: log) hs x' := by
      intro h1 h2
      have : x.call c = return ({ x with state := x.state.set c }, .nothing) := by
        cases c with
        | process m s => exact absurd rfl (h1 m s)
        | snapshot i d => exact absurd rfl (h2 i d)
        | _ => rfl
      rw [this] at hc
      cases hc
      exact ⟨_, .set h1 h2 ih⟩
    cases c with
    | process max strategy =>
      obtain ⟨⟨q, out⟩, k₁, h1, h2⟩ := M.bind_eq_some.1 hc
      cases h2
      obtain ⟨ms, _, _, _, _, _, _, _, _, _, ht, _⟩ := process_spec h1
      exact ⟨_, .run h1 ht ih⟩
    | snapshot into d =>
      obtain ⟨⟨q, s⟩, k₁, h1, h2⟩ := M.bind_eq_some.1 hc
      cases h2
      exact ⟨_, .snapshot h1 ih⟩
    | _ => exact other nofun nofun

/-- And all calls can be seen in it. -/
theorem C89_calls {e : Env} {p p' : Processor σ L} {log : List (Nat × Call σ L × Reply)} {hs : List (Happening σ L)}
    (h : Happened e p log hs p') : AtMoments Processor.call e p log p' := by
  induction h with
  | nil p => exact .nil _
  | run h1 _ _ ih => exact .cons (M.run_bind_some h1) ih
  | snapshot h1 _ ih => exact .cons (M.run_bind_some h1) ih
  | @set p p' m c log hs h1 h2 _ ih =>
    refine .cons (k := 0) ?_ ih
    cases c with
    | process m s => exact absurd rfl (h1 m s)
    | snapshot i d => exact absurd rfl (h2 i d)
    | _ => rfl

/-- Two processors that are alike at the beginning, and to which the same happens. They may be called differently, have different queues
and other senders. All later snapshots show the same. -/
theorem C89_snapshots (hc : CustomStill σ L) {e : Env} (mono : e.Mono) {p₁ p₂ p₁' p₂' : Processor σ L}
    {log₁ log₂ : List (Nat × Call σ L × Reply)} {hs : List (Happening σ L)} (h₁ : Happened e p₁ log₁ hs p₁')
    (h₂ : Happened e p₂ log₂ hs p₂') (hsame : p₁.state = p₂.state) (hr : RingsOk p₁.state.instruments)
    (hrs : ∀ a ∈ hs, RingsOk a.instruments) (ho₁ : MomentsInOrder log₁) (ho₂ : MomentsInOrder log₂) {n : Nat}
    (hn₁ : ∀ c ∈ log₁, c.1 ≤ n) (hn₂ : ∀ c ∈ log₂, c.1 ≤ n) (into : Snapshot) (d : Bool) :
    (p₁'.putSnapshot into d (e.at n) 0).map (·.1.2) = (p₂'.putSnapshot into d (e.at n) 0).map (·.1.2) := by
  obtain ⟨y, h3, h4⟩ := h₁.plays hc mono p₁.state {} n ho₁ hrs (moments_le hn₁) fun m _ => ProcessorState.alike_refl hr
  obtain ⟨y', h5, h6⟩ := h₂.plays hc mono p₁.state {} n ho₂ hrs (moments_le hn₂) fun m _ => by
    rw [← hsame]; exact ProcessorState.alike_refl hr
  rw [h3] at h5
  obtain ⟨rfl, _⟩ := Prod.mk.inj (Option.some.inj h5)
  rw [h4.shown hc, h6.shown hc]

/-- The numbers that the runs report add up to the same. -/
theorem C89_totals (hc : CustomStill σ L) {e : Env} (mono : e.Mono) {p₁ p₂ p₁' p₂' : Processor σ L}
    {log₁ log₂ : List (Nat × Call σ L × Reply)} {hs : List (Happening σ L)} (h₁ : Happened e p₁ log₁ hs p₁')
    (h₂ : Happened e p₂ log₂ hs p₂') (hsame : p₁.state = p₂.state) (hr : RingsOk p₁.state.instruments)
    (hrs : ∀ a ∈ hs, RingsOk a.instruments) (ho₁ : MomentsInOrder log₁) (ho₂ : MomentsInOrder log₂) :
    totalsOf log₁ = totalsOf log₂ := by
  obtain ⟨n₁, hn₁⟩ := exists_bound (log₁.map (·.1))
  obtain ⟨n₂, hn₂⟩ := exists_bound (log₂.map (·.1))
  obtain ⟨y, h3, _⟩ := h₁.plays hc mono p₁.state ⟨0, 0, 0⟩ n₁ ho₁ hrs hn₁ fun m _ => ProcessorState.alike_refl hr
  obtain ⟨y', h5, _⟩ := h₂.plays hc mono p₁.state ⟨0, 0, 0⟩ n₂ ho₂ hrs hn₂ fun m _ => by
    rw [← hsame]; exact ProcessorState.alike_refl hr
  rw [h3] at h5
  exact totals_inj (Prod.mk.inj (Option.some.inj h5)).2

/-- Messages that wait in the queue, while nothing is sent. Whether they are handled by one run or by many, with snapshots in between or
without, all later snapshots show the same, and the outcomes add up to the same. -/
theorem C89_split (hc : CustomStill σ L) {e : Env} (mono : e.Mono) {p p₁ p₂ : Processor σ L} {log₁ log₂ : List (Nat × Call σ L × Reply)}
    {m : Nat} {strategy : Strategy} (hr : RingsOk p.instruments) (ha : p.receiver.ahead = []) (hd : p.isDisconnected = false)
    (h₁ : AtMoments Processor.call e p log₁ p₁) (h₂ : AtMoments Processor.call e p log₂ p₂)
    (hlog₁ : ∀ c ∈ log₁, c.1 = m ∧ ((∃ max, c.2.1 = .process max strategy) ∨ c.2.1.IsSnapshot))
    (hlog₂ : ∀ c ∈ log₂, c.1 = m ∧ ((∃ max, c.2.1 = .process max strategy) ∨ c.2.1.IsSnapshot))
    (hmax : (log₁.map (·.2.1.polls)).sum = (log₂.map (·.2.1.polls)).sum) :
    totalsOf log₁ = totalsOf log₂ ∧ ∀ n into d, m ≤ n →
      (p₁.putSnapshot into d (e.at n) 0).map (·.1.2) = (p₂.putSnapshot into d (e.at n) 0).map (·.1.2) := by
  have g₁ := happened_quiet ha (by rw [hd]; nofun) hlog₁ h₁
  have g₂ := happened_quiet ha (by rw [hd]; nofun) hlog₂ h₂
  rw [← hmax] at g₂
  have order : ∀ {log : List (Nat × Call σ L × Reply)}, (∀ c ∈ log, c.1 = m ∧ ((∃ max, c.2.1 = .process max strategy) ∨ c.2.1.IsSnapshot)) →
      MomentsInOrder log := by
    intro log h
    unfold MomentsInOrder
    rw [List.pairwise_map]
    induction log with
    | nil => exact .nil
    | cons c log ih =>
      exact .cons (fun b hb => by rw [(h c List.mem_cons_self).1, (h b (List.mem_cons_of_mem _ hb)).1])
        (ih fun b hb => h b (List.mem_cons_of_mem _ hb))
  have hrs : ∀ a ∈ ((p.receiver.chan.queue.map (·.2)).take (log₁.map (·.2.1.polls)).sum).map (Happening.message m strategy),
      RingsOk a.instruments := by
    intro a ha g r hg
    obtain ⟨msg, hmsg, rfl⟩ := List.mem_map.1 ha
    refine hr.right g r (List.mem_flatMap.mpr ⟨msg, ?_, hg⟩)
    exact List.mem_append_left _ (List.mem_of_mem_take hmsg)
  refine ⟨C89_totals hc mono g₁ g₂ rfl hr.left hrs (order hlog₁) (order hlog₂), fun n into d hn => ?_⟩
  exact C89_snapshots hc mono g₁ g₂ rfl hr.left hrs (order hlog₁) (order hlog₂) (fun c hc => by rw [(hlog₁ c hc).1]; exact hn)
    (fun c hc => by rw [(hlog₂ c hc).1]; exact hn) into d

/-! ## Example: the same messages in one run and in several runs -/

/-- A counter and a gauge that tracks three seconds. Four messages wait. -/
def dividedProcessor : Processor Empty Nat where
  state := { name := some "p", activity := ⟨0, some 3000000000, true⟩
             handlers := [.instrument ⟨.acceptAll, .counter { name := "c" }, none⟩,
               .gauge (.deltasOnly .acceptAll { name := "g", value := some 0, tracking := some ⟨List.replicate 3 default, 0, 2⟩ })] }
  receiver := { chan := (Channel.fresh (some 10) true [{ todo :=
    [.observation (.observed 1 5 1), .observation (.observedOneValue 1 (.changedBy 5) 1), .removeCockpit "x",
     .observation (.observedOneValue 1 (.changedBy (-2)) 2)] }]).run [0, 0, 0, 0, 0, 0, 0, 0] }

example : dividedProcessor.receiver.chan.queue.length = 4 := by decide +kernel

/-- In one run. -/
theorem divided_once : ∃ p' log, AtMoments Processor.call ticking dividedProcessor log p' ∧
    log.map (fun c => (c.1, c.2.1)) = [(3, .process 6 .processAll)] := callsAt_spec (by decide +kernel)

/-- In four runs, of which one does nothing, with a snapshot in between. -/
theorem divided_often : ∃ p' log, AtMoments Processor.call ticking dividedProcessor log p' ∧
    log.map (fun c => (c.1, c.2.1)) = [(3, .process 1 .processAll), (3, .process 2 .processAll), (3, .snapshot [] true),
      (3, .process 0 .processAll), (3, .process 3 .processAll)] := callsAt_spec (by decide +kernel)

theorem divided_rings : RingsOk dividedProcessor.instruments := by
  intro g r hg hr
  have : dividedProcessor.instruments = [.counter { name := "c" },
    .gauge { name := "g", value := some 0, tracking := some ⟨List.replicate 3 default, 0, 2⟩ }] := rfl
  rw [this] at hg
  simp only [List.mem_cons, reduceCtorEq, Instrument.gauge.injEq, List.not_mem_nil, or_false, false_or] at hg
  subst hg
  cases hr
  decide

example : True := by
  obtain ⟨p₁, log₁, h₁, hl₁⟩ := divided_once
  obtain ⟨p₂, log₂, h₂, hl₂⟩ := divided_often
  have calls : ∀ {log : List (Nat × Call Empty Nat × Reply)} {l : List (Nat × Call Empty Nat)},
      log.map (fun c => (c.1, c.2.1)) = l → (∀ c ∈ l, c.1 = 3 ∧ ((∃ max, c.2 = .process max .processAll) ∨ c.2.IsSnapshot)) →
      ∀ c ∈ log, c.1 = 3 ∧ ((∃ max, c.2.1 = .process max .processAll) ∨ c.2.1.IsSnapshot) := by
    rintro log l rfl h c hc
    exact h _ (List.mem_map_of_mem hc)
  have sums : ∀ {log : List (Nat × Call Empty Nat × Reply)} {l : List (Nat × Call Empty Nat)},
      log.map (fun c => (c.1, c.2.1)) = l → (log.map (·.2.1.polls)).sum = (l.map (·.2.polls)).sum := by
    rintro log l rfl
    rw [List.map_map]; rfl
  have := C89_split emptyStill ticking_mono (m := 3) (strategy := .processAll) divided_rings rfl rfl h₁ h₂
    (calls hl₁ (by simp)) (calls hl₂ (by simp [Call.IsSnapshot])) (by rw [sums hl₁, sums hl₂]; rfl)
  obtain ⟨_, h₁'⟩ := C89_happens h₁
  trivial

end Metrix
