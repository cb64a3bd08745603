import Verif.Spec.Happening
import Verif.Proof.UndisturbedRun
import Verif.Proof.Processing

/-! The messages can be handled one by one. -/

namespace Metrix
open Receiver
variable {σ L : Type} [DecidableEq L] [Custom σ L]

/-- Handle the messages, one after the other. -/
def receiveAll (dec : Decider) : List (Message σ L) → ProcessorState σ L → Tally → M (ProcessorState σ L × Tally)
  | [], s, t => return (s, t)
  | m :: ms, s, t => do
    let (s, t) ← s.receive dec t m
    receiveAll dec ms s t

def Tally.plus (a b : Tally) : Tally := ⟨a.processed + b.processed, a.dropped + b.dropped, a.updated + b.updated⟩

theorem receive_active (dec : Decider) (s : ProcessorState σ L) (a : Int) (t u : Tally) (m : Message σ L) (e : Env) (k : Nat) :
    (s.activeAt a).receive dec (u.plus t) m e k = (s.receive dec t m e k).map fun r => ((r.1.1.activeAt a, u.plus r.1.2), r.2) := by
  cases m with
  | observation o =>
    unfold ProcessorState.receive
    dsimp only
    by_cases h : dec.shouldBeProcessed o = true
    · rw [if_pos h, if_pos h]
      change (handleCockpits o s.cockpits >>= _) e k = _
      rw [M.run_bind, M.run_bind]
      cases handleCockpits o s.cockpits e k with
      | none => rfl
      | some r =>
        obtain ⟨⟨cs, n⟩, k₁⟩ := r
        change (handleHandlers o s.handlers >>= _) e k₁ = Option.map _ ((handleHandlers o s.handlers >>= _) e k₁)
        rw [M.run_bind, M.run_bind]
        cases handleHandlers o s.handlers e k₁ with
        | none => rfl
        | some r =>
          obtain ⟨⟨hs, m⟩, k₂⟩ := r
          simp only [M.run_pure, Option.map_some, Tally.plus, ProcessorState.activeAt, Nat.add_assoc]
    · rw [if_neg h, if_neg h]; rfl
  | addCockpit c =>
    simp only [ProcessorState.receive, M.run_pure, Option.map_some, ProcessorState.addCockpit, ProcessorState.activeAt]
    cases c.name with
    | none => rfl
    | some n =>
      dsimp only
      split <;> rename_i h <;> simp only [h, if_true, if_false, Bool.false_eq_true] <;> rfl
  | removeCockpit | addHandler | addPanelToCockpit | removePanelFromCockpit => rfl

theorem receiveAll_active (dec : Decider) (a : Int) (u : Tally) (e : Env) : ∀ (ms : List (Message σ L)) (s : ProcessorState σ L) (t : Tally)
    (k : Nat), receiveAll dec ms (s.activeAt a) (u.plus t) e k =
      (receiveAll dec ms s t e k).map fun r => ((r.1.1.activeAt a, u.plus r.1.2), r.2)
  | [], _, _, _ => rfl
  | m :: ms, s, t, k => by
    unfold receiveAll
    rw [M.run_bind, M.run_bind, receive_active]
    cases s.receive dec t m e k with
    | none => rfl
    | some r => exact receiveAll_active dec a u e ms r.1.1 r.1.2 r.2

omit [DecidableEq L] [Custom σ L] in
theorem tryRecv_took {r r' : Receiver (Message σ L)} {x : TryRecv (Message σ L)} (h : r.tryRecv = (r', x)) :
    Took r.chan r'.chan (match x with
      | .ok m => [m]
      | _ => []) := by
  cases x with
  | ok m =>
    obtain ⟨s, u, hs, hu⟩ := tryRecv_ok h
    refine ⟨⟨_, ?_, hs⟩, ⟨[(u, m)], rfl, hu⟩⟩
    intro a ha
    rcases List.mem_append.mp ha with ha | ha
    · exact noDrop_threads s a ha
    · simp at ha; subst ha; simp
  | empty => exact Took.threads (tryRecv_empty h).1
  | disconnected => exact Took.threads (tryRecv_disconnected h).1

/-- The loop handles the messages that it takes, one after the other. -/
theorem receiveLoop_all (dec : Decider) (e : Env) : ∀ (n : Nat) {p p' : Processor σ L} {t t' : Tally} {k k' : Nat},
    p.receiveLoop dec n t e k = some ((p', t'), k') →
    ∃ ms, Took p.receiver.chan p'.receiver.chan ms ∧ receiveAll dec ms p.state t e k = some ((p'.state, t'), k')
  | 0, p, p', t, t', k, k', h => by
    cases h
    exact ⟨[], Took.refl _, rfl⟩
  | n + 1, p, p', t, t', k, k', h => by
    unfold Processor.receiveLoop at h
    rcases hr : p.receiver.tryRecv with ⟨r, x⟩
    simp only [hr] at h
    have ht := tryRecv_took hr
    cases x with
    | ok m =>
      obtain ⟨⟨s, u⟩, k₁, h1, h2⟩ := M.bind_eq_some.1 h
      obtain ⟨ms, h3, h4⟩ := receiveLoop_all dec e n h2
      exact ⟨m :: ms, ht.trans h3, (M.run_bind_some h1).trans h4⟩
    | empty =>
      obtain ⟨ms, h3, h4⟩ := receiveLoop_all dec e n h
      exact ⟨ms, ht.trans h3, h4⟩
    | disconnected =>
      cases h
      exact ⟨[], ht, rfl⟩

theorem receive_count {dec : Decider} {s s' : ProcessorState σ L} {t t' : Tally} {m : Message σ L} {e : Env} {k k' : Nat}
    (h : s.receive dec t m e k = some ((s', t'), k')) : t'.processed + t'.dropped = t.processed + t.dropped + 1 := by
  cases m with
  | observation o =>
    unfold ProcessorState.receive at h
    dsimp only at h
    split at h
    · obtain ⟨_, _, _, h⟩ := M.bind_eq_some.1 h
      obtain ⟨_, _, _, h⟩ := M.bind_eq_some.1 h
      cases h
      dsimp only; omega
    · cases h; rfl
  | addCockpit | removeCockpit | addHandler | addPanelToCockpit | removePanelFromCockpit =>
    cases h
    dsimp only; omega

theorem receiveAll_count {dec : Decider} {ms : List (Message σ L)} {s s' : ProcessorState σ L} {t t' : Tally} {e : Env} {k k' : Nat}
    (h : receiveAll dec ms s t e k = some ((s', t'), k')) : t'.processed + t'.dropped = t.processed + t.dropped + ms.length := by
  induction ms generalizing s t k with
  | nil => cases h; rfl
  | cons m ms ih =>
    obtain ⟨⟨s₁, t₁⟩, k₁, h1, h2⟩ := M.bind_eq_some.1 h
    rw [ih h2, receive_count h1, List.length_cons]; omega

omit [DecidableEq L] [Custom σ L] in
theorem Took.unique {c c' : Channel (Message σ L)} {ms ms' : List (Message σ L)} (h : Took c c' ms) (h' : Took c c' ms') : ms = ms' := by
  obtain ⟨_, l, rfl, h1⟩ := h
  obtain ⟨_, l', rfl, h2⟩ := h'
  rw [h1, List.append_cancel_left_eq] at h2
  rw [h2]

/-- A run that happens at one moment: what it does to the state, and what it reports. -/
theorem process_all {p p' : Processor σ L} {max : Nat} {strategy : Strategy} {out : Outcome} {e : Env} {t : Int} (hf : Frozen e t)
    {k k' : Nat} (h : p.process max strategy e k = some ((p', out), k')) {ms : List (Message σ L)}
    (hms : Took p.receiver.chan p'.receiver.chan ms) :
    ∃ s, p'.state = (if ms = [] then s else s.activeAt t) ∧
      ((ms = [] ∧ s = p.state ∧ out.processed = 0 ∧ out.dropped = 0 ∧ out.instrumentsUpdated = 0) ∨ ∃ dec k₁ k₂,
        strategy.decider e k = some (dec, k₁) ∧
        receiveAll dec ms p.state {} e k₁ = some ((s, ⟨out.processed, out.dropped, out.instrumentsUpdated⟩), k₂)) := by
  unfold Processor.process at h
  by_cases hd : p.isDisconnected = true
  · rw [if_pos hd] at h
    cases h
    obtain rfl := hms.unique (Took.refl _)
    exact ⟨_, rfl, .inl ⟨rfl, rfl, rfl, rfl, rfl⟩⟩
  rw [if_neg hd] at h
  obtain ⟨dec, k₁, h1, h⟩ := M.bind_eq_some.1 h
  obtain ⟨⟨q, ta⟩, k₂, h2, h⟩ := M.bind_eq_some.1 h
  obtain ⟨ms', h3, h4⟩ := receiveLoop_all dec e max h2
  have hw : Took q.receiver.chan q.receiver.len.1.chan [] := Took.threads q.receiver.wait_acts
  have hnil : ms' = [] ↔ ta.processed = 0 ∧ ta.dropped = 0 := by
    have := receiveAll_count h4
    simp only [Nat.zero_add] at this
    rw [← List.length_eq_zero_iff, ← this]; omega
  dsimp only at h
  split at h
  · rename_i hs
    obtain ⟨now, k₃, h5, h⟩ := M.bind_eq_some.1 h
    cases h
    obtain rfl : now = t := by
      cases h5; exact hf.clock _
    obtain rfl := hms.unique (h3.trans hw)
    simp only [List.append_nil]
    refine ⟨q.state, ?_, .inr ⟨dec, k₁, _, h1, h4⟩⟩
    rw [if_neg]
    · rfl
    · rw [hnil]
      simp only [Outcome.somethingHappened, Bool.or_eq_true, decide_eq_true_eq] at hs
      omega
  · rename_i hs
    cases h
    obtain rfl := hms.unique (h3.trans hw)
    simp only [List.append_nil]
    refine ⟨q.state, ?_, .inr ⟨dec, k₁, _, h1, h4⟩⟩
    rw [if_pos]
    rw [hnil]
    simp only [Outcome.somethingHappened, Bool.or_eq_true, decide_eq_true_eq] at hs
    omega

/-- What a happening does. -/
def Happening.play (e : Env) (x : ProcessorState σ L × Tally) : Happening σ L → Option (ProcessorState σ L × Tally)
  | .message m strategy msg =>
    ((do
      let dec ← strategy.decider
      let (s, t) ← x.1.receive dec x.2 msg
      return (s.activeAt (e.clock m), t) : M (ProcessorState σ L × Tally)) (e.at m) 0).map (·.1)
  | .set c => some (x.1.set c, x.2)

theorem ProcessorState.Alike.activeAt {rnd : Rat → Rat} {t : Int} {s s' : ProcessorState σ L} (h : s.Alike rnd t s') (a : Int) :
    (s.activeAt a).Alike rnd t (s'.activeAt a) := by
  unfold ProcessorState.activeAt
  rw [h.activity]
  exact h.active _

/-- Messages that are handled at the same moment, one by one. -/
theorem play_messages (hc : CustomStill σ L) {e : Env} {m k₁ : Nat} {strategy : Strategy} {dec : Decider}
    (hdec : strategy.decider (e.at m) 0 = some (dec, k₁)) : ∀ (ms : List (Message σ L)) {s s' x : ProcessorState σ L} {t t' u : Tally}
    {k k' : Nat}, receiveAll dec ms s t (e.at m) k = some ((s', t'), k') → (∀ msg ∈ ms, RingsOk msg.instruments) →
    s.Alike e.rnd (e.clock m) x → ∃ y, (ms.map (Happening.message m strategy)).foldlM (Happening.play e) (x, u.plus t) = some (y, u.plus t') ∧
      (if ms = [] then s' else s'.activeAt (e.clock m)).Alike e.rnd (e.clock m) y
  | [], s, s', x, t, t', u, k, k', h, _, ha => by
    cases h
    exact ⟨x, rfl, ha⟩
  | msg :: ms, s, s', x, t, t', u, k, k', h, hr, ha => by
    obtain ⟨⟨s₁, t₁⟩, k₂, h1, h2⟩ := M.bind_eq_some.1 h
    have hs := (ha.receive (hc.at e m) (e.at_frozen m) dec t (hr msg List.mem_cons_self)) k k₁
    rw [h1] at hs
    cases h3 : x.receive dec t msg (e.at m) k₁ with
    | none => rw [h3] at hs; cases hs
    | some r =>
      rw [h3] at hs
      obtain ⟨⟨x₁, t₁'⟩, k₃⟩ := r
      cases hs with
      | some hs =>
        obtain ⟨rfl, hs⟩ := hs
        have h4 := receive_active dec x x.activity.lastActivity t u msg (e.at m) k₁
        rw [h3] at h4
        have hx : x.activeAt x.activity.lastActivity = x := rfl
        rw [hx] at h4
        have h5 := receiveAll_active dec (e.clock m) ⟨0, 0, 0⟩ (e.at m) ms s₁ t₁ k₂
        have h2 : receiveAll dec ms s₁ t₁ (e.at m) k₂ = _ := h2
        rw [h2] at h5
        have hz : ∀ t : Tally, Tally.plus ⟨0, 0, 0⟩ t = t := fun t => by simp only [Tally.plus, Nat.zero_add]
        rw [hz] at h5
        simp only [Option.map_some, hz] at h5
        obtain ⟨y, h6, h7⟩ := play_messages hc hdec ms (u := u) h5 (fun a b => hr a (List.mem_cons_of_mem _ b)) (hs.activeAt (e.clock m))
        refine ⟨y, ?_, ?_⟩
        · rw [List.map_cons, List.foldlM_cons]
          have : Happening.play e (x, u.plus t) (.message m strategy msg) = some (x₁.activeAt (e.clock m), u.plus t₁) := by
            unfold Happening.play
            dsimp only
            rw [M.run_bind_some hdec, M.run_bind_some h4]
            rfl
          rw [this]
          exact h6
        · rw [if_neg (by simp)]
          split at h7
          · exact h7
          · exact h7

theorem Tally.plus_zero (u : Tally) : u.plus {} = u := rfl

omit [DecidableEq L] [Custom σ L] in
theorem totals_plus (u : Tally) (a b c : Nat) (t : Totals) :
    (u.plus ⟨a, b, c⟩).plus ⟨t.processed, t.dropped, t.updated⟩ = u.plus ⟨a + t.processed, b + t.dropped, c + t.updated⟩ := by
  simp only [Tally.plus, Nat.add_assoc]

/-- However the messages were divided into runs: the same as one by one, except for how far things have been ticked. -/
theorem Happened.plays (hc : CustomStill σ L) {e : Env} (mono : e.Mono) {p p' : Processor σ L} {log : List (Nat × Call σ L × Reply)}
    {hs : List (Happening σ L)} (h : Happened e p log hs p') : ∀ (x : ProcessorState σ L) (u : Tally) (n : Nat), MomentsInOrder log →
    (∀ a ∈ hs, RingsOk a.instruments) → (∀ m ∈ log.map (·.1), m ≤ n) →
    (∀ m ∈ n :: log.map (·.1), p.state.Alike e.rnd (e.clock m) x) →
    ∃ y, hs.foldlM (Happening.play e) (x, u) = some (y, u.plus ⟨(totalsOf log).processed, (totalsOf log).dropped, (totalsOf log).updated⟩) ∧
      p'.state.Alike e.rnd (e.clock n) y := by
  induction h with
  | nil p => exact fun x u n _ _ _ ha => ⟨x, rfl, ha n (by simp)⟩
  | @run p p₁ p' m k max strategy out ms log hs hp hms _ ih =>
    intro x u n ho hr hn ha
    have hord := List.pairwise_cons.1 ho
    obtain ⟨s, hs1, hcase⟩ := process_all (e.at_frozen m) hp hms
    have hfirst : ∃ y, (ms.map (Happening.message m strategy)).foldlM (Happening.play e) (x, u) =
        some (y, u.plus ⟨out.processed, out.dropped, out.instrumentsUpdated⟩) ∧ p₁.state.Alike e.rnd (e.clock m) y := by
      rcases hcase with ⟨rfl, rfl, h1, h2, h3⟩ | ⟨dec, k₁, k₂, h1, h2⟩
      · rw [h1, h2, h3, hs1, if_pos rfl]
        exact ⟨x, rfl, ha m (by simp)⟩
      · rw [hs1, ← Tally.plus_zero u]
        exact play_messages hc h1 ms h2 (fun msg hmsg => hr (.message m strategy msg) (by simp [hmsg])) (ha m (by simp))
    obtain ⟨y, h1, h2⟩ := hfirst
    obtain ⟨z, h3, h4⟩ := ih y (u.plus ⟨out.processed, out.dropped, out.instrumentsUpdated⟩) n hord.2
      (fun a b => hr a (List.mem_append_right _ b)) (fun m' hm' => hn m' (List.mem_cons_of_mem _ hm')) (by
        intro m' hm'
        refine h2.mono (mono _ _ ?_)
        rcases List.mem_cons.1 hm' with rfl | hm'
        · exact hn m (by simp)
        · exact hord.1 m' hm')
    refine ⟨z, ?_, h4⟩
    rw [List.foldlM_append, h1]
    refine h3.trans ?_
    rw [totals_plus]
    rfl
  | @snapshot p p₁ p' m k into s d log hs hp _ ih =>
    intro x u n ho hr hn ha
    have hord := List.pairwise_cons.1 ho
    obtain ⟨⟨s₁, into'⟩, k₁, h1, h2⟩ := M.bind_eq_some.1 hp
    cases h2
    have h2 := ((ha m (by simp)).put (hc.at e m) (e.at_frozen m) into d).left h1
    refine ih x u n hord.2 hr (fun m' hm' => hn m' (List.mem_cons_of_mem _ hm')) ?_
    intro m' hm'
    refine h2.mono (mono _ _ ?_)
    rcases List.mem_cons.1 hm' with rfl | hm'
    · exact hn m (by simp)
    · exact hord.1 m' hm'
  | @set p p' m c log hs h1 h2 _ ih =>
    intro x u n ho hr hn ha
    have hord := List.pairwise_cons.1 ho
    obtain ⟨y, h3, h4⟩ := ih (x.set c) u n hord.2 (fun a b => hr a (List.mem_cons_of_mem _ b))
      (fun m' hm' => hn m' (List.mem_cons_of_mem _ hm')) (by
        intro m' hm'
        have : p.state.Alike e.rnd (e.clock m') x := ha m' (by
          rcases List.mem_cons.1 hm' with rfl | hm'
          · simp
          · simp only [List.map_cons, List.mem_cons]; exact .inr (.inr hm'))
        exact this.set (hr (.set c) (by simp)))
    exact ⟨y, h3, h4⟩

theorem exists_bound (l : List Nat) : ∃ n, ∀ m ∈ l, m ≤ n := by
  induction l with
  | nil => exact ⟨0, nofun⟩
  | cons a l ih =>
    obtain ⟨n, hn⟩ := ih
    refine ⟨max a n, fun m hm => ?_⟩
    rcases List.mem_cons.1 hm with rfl | hm
    · exact le_max_left ..
    · exact (hn m hm).trans (le_max_right ..)

omit [DecidableEq L] [Custom σ L] in
theorem moments_le {n : Nat} {log : List (Nat × Call σ L × Reply)} (h : ∀ c ∈ log, c.1 ≤ n) : ∀ m ∈ log.map (·.1), m ≤ n := by
  intro m hm
  obtain ⟨c, hc, rfl⟩ := List.mem_map.1 hm
  exact h c hc

theorem totals_inj {a b : Totals} (h : Tally.plus ⟨0, 0, 0⟩ ⟨a.processed, a.dropped, a.updated⟩ =
    Tally.plus ⟨0, 0, 0⟩ ⟨b.processed, b.dropped, b.updated⟩) : a = b := by
  simp only [Tally.plus, Nat.zero_add, Tally.mk.injEq] at h
  cases a; cases b
  simp only [Totals.mk.injEq]
  exact h

/-- What is alike is shown in the same way. -/
theorem ProcessorState.Alike.shown (hc : CustomStill σ L) {e : Env} {n : Nat} {p : Processor σ L} {y : ProcessorState σ L}
    (hp : p.state.Alike e.rnd (e.clock n) y) (into : Snapshot) (d : Bool) :
    (p.putSnapshot into d (e.at n) 0).map (·.1.2) = (y.putSnapshot into d (e.at n) 0).map (·.1.2) := by
  have := (hp.put (hc.at e n) (e.at_frozen n) into d) 0 0
  unfold Processor.putSnapshot
  rw [M.run_bind]
  cases h7 : p.state.putSnapshot into d (e.at n) 0 with
  | none =>
    rw [h7] at this
    cases h8 : y.putSnapshot into d (e.at n) 0 with
    | none => rfl
    | some r => rw [h8] at this; cases this
  | some r =>
    rw [h7] at this
    cases h8 : y.putSnapshot into d (e.at n) 0 with
    | none => rw [h8] at this; cases this
    | some r' =>
      rw [h8] at this
      cases this with
      | some h => exact congrArg some h.1

/-! ## Nothing arrives -/

/-- If no thread takes a step meanwhile, a run takes what is in the queue. -/
theorem receiveLoop_quiet (dec : Decider) (e : Env) : ∀ (n : Nat) {p p' : Processor σ L} {t t' : Tally} {k k' : Nat},
    p.receiver.ahead = [] → p.receiveLoop dec n t e k = some ((p', t'), k') →
    Took p.receiver.chan p'.receiver.chan ((p.receiver.chan.queue.map (·.2)).take n) ∧
      p'.receiver.ahead = [] ∧ p'.receiver.chan.queue = p.receiver.chan.queue.drop n ∧
      (p'.isDisconnected = true → p.isDisconnected = true ∨ p'.receiver.chan.queue = [])
  | 0, p, p', t, t', k, k', ha, h => by
    cases h
    exact ⟨Took.refl _, ha, rfl, .inl⟩
  | n + 1, p, p', t, t', k, k', ha, h => by
    unfold Processor.receiveLoop at h
    have hw : p.receiver.wait = p.receiver := by unfold Receiver.wait; rw [ha]
    rcases hr : p.receiver.tryRecv with ⟨r, x⟩
    simp only [hr] at h
    have ht := tryRecv_took hr
    unfold Receiver.tryRecv at hr
    rw [hw] at hr
    dsimp only at hr
    cases hq : p.receiver.chan.queue with
    | nil =>
      rw [hq] at hr
      dsimp only at hr
      cases hr
      cases hab : p.receiver.chan.abandoned with
      | true =>
        rw [hab] at h
        cases h
        exact ⟨Took.refl _, ha, hq, fun _ => .inr hq⟩
      | false =>
        rw [hab] at h
        obtain ⟨h1, h2, h3, h4⟩ := receiveLoop_quiet dec e n (p := { p with receiver := p.receiver }) ha h
        refine ⟨?_, h2, ?_, h4⟩
        · rw [hq] at h1; simpa using h1
        · rw [h3]; simp [hq]
    | cons q qs =>
      rw [hq] at hr
      obtain ⟨u, msg⟩ := q
      dsimp only at hr
      cases hr
      obtain ⟨⟨s, v⟩, k₁, h1, h2⟩ := M.bind_eq_some.1 h
      have htail : p.receiver.chan.take.queue = qs := by unfold Channel.take; rw [hq]
      obtain ⟨h3, h4, h5, h6⟩ := receiveLoop_quiet dec e n
        (p := { p with state := s, receiver := { p.receiver with chan := p.receiver.chan.take } }) ha h2
      refine ⟨?_, h4, ?_, h6⟩
      · have := ht.trans h3
        dsimp only at this
        rw [htail] at this
        exact this
      · rw [h5, htail]; rfl

theorem process_quiet {p p' : Processor σ L} {max : Nat} {strategy : Strategy} {out : Outcome} {e : Env} {k k' : Nat}
    (ha : p.receiver.ahead = []) (hd : p.isDisconnected = true → p.receiver.chan.queue = [])
    (h : p.process max strategy e k = some ((p', out), k')) :
    Took p.receiver.chan p'.receiver.chan ((p.receiver.chan.queue.map (·.2)).take max) ∧
      p'.receiver.ahead = [] ∧ p'.receiver.chan.queue = p.receiver.chan.queue.drop max ∧
      (p'.isDisconnected = true → p'.receiver.chan.queue = []) := by
  unfold Processor.process at h
  by_cases hdis : p.isDisconnected = true
  · rw [if_pos hdis] at h
    cases h
    refine ⟨?_, ha, ?_, hd⟩
    · rw [hd hdis]; simpa using Took.refl _
    · rw [hd hdis]; simp
  rw [if_neg hdis] at h
  obtain ⟨dec, k₁, h1, h⟩ := M.bind_eq_some.1 h
  obtain ⟨⟨q, ta⟩, k₂, h2, h⟩ := M.bind_eq_some.1 h
  obtain ⟨h3, h4, h5, h6⟩ := receiveLoop_quiet dec e max ha h2
  have hw : q.receiver.len.1 = q.receiver := by
    simp only [Receiver.len]; unfold Receiver.wait; rw [h4]
  dsimp only at h
  rw [hw] at h
  have hd' : q.isDisconnected = true → q.receiver.chan.queue = [] := fun hq => (h6 hq).resolve_left hdis
  split at h
  · obtain ⟨now, k₃, h5', h⟩ := M.bind_eq_some.1 h
    cases h
    exact ⟨h3, h4, h5, hd'⟩
  · cases h
    exact ⟨h3, h4, h5, hd'⟩

/-- Runs and snapshots at one moment. -/
theorem happened_quiet {e : Env} {m : Nat} {strategy : Strategy} {p p' : Processor σ L} {log : List (Nat × Call σ L × Reply)}
    (ha : p.receiver.ahead = []) (hd : p.isDisconnected = true → p.receiver.chan.queue = [])
    (hlog : ∀ c ∈ log, c.1 = m ∧ ((∃ max, c.2.1 = .process max strategy) ∨ c.2.1.IsSnapshot))
    (h : AtMoments Processor.call e p log p') :
    Happened e p log (((p.receiver.chan.queue.map (·.2)).take (log.map (·.2.1.polls)).sum).map (.message m strategy)) p' := by
  induction h with
  | nil x => simpa using Happened.nil (e := e) x
  | @cons x x₁ x' m' k c r log hc _ ih =>
    obtain ⟨rfl, hcall⟩ := hlog _ List.mem_cons_self
    dsimp only at hcall
    rcases hcall with ⟨max, rfl⟩ | ⟨into, d, rfl⟩
    · obtain ⟨⟨q, out⟩, k₁, h1, h2⟩ := M.bind_eq_some.1 hc
      cases h2
      obtain ⟨h3, h4, h5, h6⟩ := process_quiet ha hd h1
      have := Happened.run h1 h3 (ih h4 h6 (fun c hc => hlog c (List.mem_cons_of_mem _ hc)))
      rw [h5, ← List.map_append, List.map_drop, ← List.take_add] at this
      exact this
    · obtain ⟨⟨q, s⟩, k₁, h1, h2⟩ := M.bind_eq_some.1 hc
      cases h2
      have hq : x₁.receiver = x.receiver ∧ x₁.isDisconnected = x.isDisconnected := by
        obtain ⟨⟨st, s'⟩, k₂, _, h4⟩ := M.bind_eq_some.1 h1
        cases h4; exact ⟨rfl, rfl⟩
      have := Happened.snapshot h1 (ih (by rw [hq.1]; exact ha) (by rw [hq.1, hq.2]; exact hd)
        (fun c hc => hlog c (List.mem_cons_of_mem _ hc)))
      rw [hq.1] at this
      have hp : (((m', (Call.snapshot into d : Call σ L), Reply.snapshot s) :: log).map (·.2.1.polls)).sum = (log.map (·.2.1.polls)).sum := by
        rw [List.map_cons, List.sum_cons]; exact Nat.zero_add _
      rw [hp]
      exact this

end Metrix
