import Verif.Spec.Fleet
import Mathlib.Data.Fintype.EquivFin
import Mathlib.Order.WellFounded

/-! # Drivers that wait for each other: invariants and progress -/

namespace Metrix.Fleet
variable {n : Nat}

@[simp] theorem Net.set_peer (net : Net n) (i j : Fin n) (p : Peer n) :
    (net.set i p).peer j = if j = i then p else net.peer j := rfl
@[simp] theorem Net.set_answers (net : Net n) (i : Fin n) (p : Peer n) : (net.set i p).answers = net.answers := rfl

@[simp] theorem Peer.resume_queue (p : Peer n) : p.resume.queue = p.queue := rfl
@[simp] theorem Peer.resume_mounts (p : Peer n) : p.resume.mounts = p.mounts := rfl
@[simp] theorem Peer.resume_alive (p : Peer n) : p.resume.alive = p.alive := rfl

theorem Peer.resume_job {p : Peer n} {b : Job n} (h : p.resume.job = some b) :
    b.waiting = false ∧ ∃ b₀, p.job = some b₀ ∧ b.caller = b₀.caller ∧
      (b = b₀ ∨ (b₀.waiting = true ∧ b.todo = b₀.todo.tail)) := by
  simp only [Peer.resume, Option.map_eq_some_iff] at h
  obtain ⟨b₀, h0, rfl⟩ := h
  by_cases hw : b₀.waiting
  · rw [if_pos hw]; exact ⟨rfl, b₀, h0, rfl, .inr ⟨hw, rfl⟩⟩
  · rw [if_neg hw]; exact ⟨by simpa using hw, b₀, h0, rfl, .inl rfl⟩

@[simp] theorem Peer.resume_callers (p : Peer n) : p.resume.callers = p.callers := by
  unfold Peer.callers Peer.resume
  cases hj : p.job with
  | none => rfl
  | some b =>
    simp only [Option.map_some, Option.toList_some, List.map_cons, List.map_nil]
    by_cases hw : b.waiting <;> simp [hw]

@[simp] theorem Peer.resume_waitingOn (p : Peer n) : p.resume.waitingOn = none := by
  unfold Peer.waitingOn
  split
  · rename_i h
    have := (Peer.resume_job h).1
    cases this
  · rfl

/-- Driver `i` gets its answer. -/
theorem Net.answer_peer (net : Net n) (c : Caller n) (ok : Bool) (i : Fin n) :
    (net.answer c ok).peer i = if c = .driver i then (net.peer i).resume else net.peer i := by
  cases c with
  | outside id => simp [Net.answer]
  | driver j =>
    simp only [Net.answer, Net.set_peer, Caller.driver.injEq, eq_comm (a := i)]
    split
    · rename_i h; subst h; rfl
    · rfl

/-- What holds at every time, while driver `i` still owes answers to `cs`. -/
structure Owing (R : Fin n → Fin n → Prop) (net : Net n) (i : Fin n) (cs : List (Caller n)) : Prop where
  mounts : ∀ x, ∀ j ∈ (net.peer x).mounts, R j x
  todo : ∀ x b, (net.peer x).job = some b → ∀ j ∈ b.todo, R j x
  queued : ∀ x js, Msg.mount js ∈ (net.peer x).queue → ∀ j ∈ js, R j x
  dead : ∀ x, (net.peer x).alive = false → (net.peer x).queue = [] ∧ (net.peer x).job = none
  asked : ∀ x b, (net.peer x).job = some b → b.waiting = true → b.todo ≠ []
  count : ∀ x j, (net.peer j).callers.count (.driver x) + (if j = i then cs.count (.driver x) else 0) =
    if (net.peer x).waitingOn = some j then 1 else 0

/-- What holds at every time. -/
def Sound (R : Fin n → Fin n → Prop) (net : Net n) : Prop := ∀ i, Owing R net i []

variable {R : Fin n → Fin n → Prop}

theorem Owing.sound {net : Net n} {i : Fin n} (h : Owing R net i []) : Sound R net := fun j =>
  ⟨h.1, h.2, h.3, h.4, h.5, by simpa using h.6⟩

theorem Owing.answer {net : Net n} {i : Fin n} {c : Caller n} {cs : List (Caller n)} (h : Owing R net i (c :: cs)) (ok : Bool) :
    Owing R (net.answer c ok) i cs := by
  refine ⟨?_, ?_, ?_, ?_, ?_, ?_⟩
  · intro x j hj
    rw [Net.answer_peer] at hj
    split at hj <;> exact h.mounts x j hj
  · intro x b hb j hj
    rw [Net.answer_peer] at hb
    split at hb
    · obtain ⟨-, b₀, h0, -, he⟩ := Peer.resume_job hb
      rcases he with rfl | ⟨-, he⟩
      · exact h.todo x _ h0 j hj
      · rw [he] at hj; exact h.todo x _ h0 j (List.mem_of_mem_tail hj)
    · exact h.todo x b hb j hj
  · intro x js hq
    rw [Net.answer_peer] at hq
    split at hq <;> exact h.queued x js hq
  · intro x hx
    rw [Net.answer_peer] at hx ⊢
    split
    · rename_i hc
      rw [if_pos hc] at hx
      have := h.dead x hx
      exact ⟨this.1, by simp [Peer.resume, this.2]⟩
    · rename_i hc
      rw [if_neg hc] at hx
      exact h.dead x hx
  · intro x b hb hw
    rw [Net.answer_peer] at hb
    split at hb
    · have := (Peer.resume_job hb).1
      rw [this] at hw; cases hw
    · exact h.asked x b hb hw
  · intro x j
    have hcs : ((net.answer c ok).peer j).callers = (net.peer j).callers := by
      rw [Net.answer_peer]; split <;> simp
    rw [hcs]
    have h0 := h.count x j
    have hi := h.count x i
    rw [Net.answer_peer]
    by_cases hc : c = .driver x
    · subst hc
      simp only [if_true, List.count_cons_self] at hi
      have hw : (net.peer x).waitingOn = some i := by
        by_contra hne
        rw [if_neg hne] at hi; omega
      rw [hw] at h0 hi
      simp only [if_true, Peer.resume_waitingOn, reduceCtorEq, if_false]
      simp only [if_true] at hi
      by_cases hji : j = i
      · subst hji; simp only [if_true]; omega
      · rw [if_neg hji, if_neg (by simpa using Ne.symm hji)] at h0
        rw [if_neg hji]
        exact h0
    · rw [if_neg hc, ← h0, List.count_cons_of_ne hc]

theorem Owing.answers {i : Fin n} {cs : List (Caller n)} : ∀ {net : Net n}, Owing R net i cs →
    Owing R (cs.foldl (fun net c => net.answer c false) net) i [] := by
  induction cs with
  | nil => exact fun h => h
  | cons c cs ih => exact fun h => ih (h.answer false)

theorem callers_append (p : Peer n) (m : Msg n) :
    ({ p with queue := p.queue ++ [m] } : Peer n).callers = p.callers ++ (match m with | .request c => [c] | .mount _ => []) := by
  cases m <;> simp [Peer.callers]

theorem waitingOn_queue (p : Peer n) (q : List (Msg n)) : ({ p with queue := q } : Peer n).waitingOn = p.waitingOn := rfl

/-- A message from outside. -/
theorem Sound.send {net : Net n} (h : Sound R net) (i : Fin n) (m : Msg n)
    (hm : ∀ js, m = .mount js → ∀ j ∈ js, R j i) (hr : ∀ x, m ≠ .request (.driver x)) : Sound R (net.send i m) := by
  have h := h i
  unfold Net.send
  split
  · refine Owing.sound (i := i) ⟨?_, ?_, ?_, ?_, ?_, ?_⟩
    · intro x j hj
      rw [Net.set_peer] at hj
      split at hj
      · rename_i hx; subst hx; exact h.mounts _ j hj
      · exact h.mounts x j hj
    · intro x b hb j hj
      rw [Net.set_peer] at hb
      split at hb
      · rename_i hx; subst hx; exact h.todo _ b hb j hj
      · exact h.todo x b hb j hj
    · intro x js hq
      rw [Net.set_peer] at hq
      split at hq
      · rename_i hx; subst hx
        simp only [List.mem_append, List.mem_singleton] at hq
        rcases hq with hq | hq
        · exact h.queued _ js hq
        · exact hm js hq.symm
      · exact h.queued x js hq
    · intro x hx
      rw [Net.set_peer] at hx ⊢
      split
      · rename_i ha hxi
        rw [if_pos hxi] at hx
        simp only [ha] at hx
        cases hx
      · rename_i hxi; rw [if_neg hxi] at hx; exact h.dead x hx
    · intro x b hb hw
      rw [Net.set_peer] at hb
      split at hb
      · rename_i hx; subst hx; exact h.asked _ b hb hw
      · exact h.asked x b hb hw
    · intro x j
      have h0 := h.count x j
      have hw : (((net.set i { net.peer i with queue := (net.peer i).queue ++ [m] }).peer x)).waitingOn = (net.peer x).waitingOn := by
        rw [Net.set_peer]
        split
        · rename_i hx; subst hx; rfl
        · rfl
      rw [hw, ← h0]
      congr 1
      rw [Net.set_peer]
      split
      · rename_i hj; subst hj
        rw [callers_append, List.count_append]
        cases m with
        | mount js => simp
        | request c =>
          have : c ≠ .driver x := fun hc => hr x (by rw [hc])
          simp [List.count_cons_of_ne this]
      · rfl
  · cases m with
    | mount js => exact h.sound
    | request c =>
      refine Owing.sound (i := i) (Owing.answer (c := c) ?_ false)
      refine ⟨h.1, h.2, h.3, h.4, h.5, ?_⟩
      intro x j
      rw [← h.count x j]
      congr 1
      have : c ≠ .driver x := fun hc => hr x (by rw [hc])
      simp [List.count_cons_of_ne this]

/-- A driver changes, but it neither begins nor stops to wait, and every caller is still in its list or now in `cs`. -/
theorem Sound.set {net : Net n} (h : Sound R net) {i : Fin n} {p : Peer n} {cs : List (Caller n)}
    (hmounts : ∀ j ∈ p.mounts, R j i) (htodo : ∀ b, p.job = some b → ∀ j ∈ b.todo, R j i)
    (hqueued : ∀ js, Msg.mount js ∈ p.queue → ∀ j ∈ js, R j i) (hdead : p.alive = false → p.queue = [] ∧ p.job = none)
    (hasked : ∀ b, p.job = some b → b.waiting = true → b.todo ≠ [])
    (hcount : ∀ x, p.callers.count (.driver x) + cs.count (.driver x) = (net.peer i).callers.count (.driver x))
    (hwait : p.waitingOn = (net.peer i).waitingOn) : Owing R (net.set i p) i cs := by
  have h := h i
  refine ⟨?_, ?_, ?_, ?_, ?_, ?_⟩
  · intro x j hj
    rw [Net.set_peer] at hj
    split at hj
    · rename_i hx; subst hx; exact hmounts j hj
    · exact h.mounts x j hj
  · intro x b hb j hj
    rw [Net.set_peer] at hb
    split at hb
    · rename_i hx; subst hx; exact htodo b hb j hj
    · exact h.todo x b hb j hj
  · intro x js hq
    rw [Net.set_peer] at hq
    split at hq
    · rename_i hx; subst hx; exact hqueued js hq
    · exact h.queued x js hq
  · intro x hx
    rw [Net.set_peer] at hx ⊢
    split
    · rename_i hxi; rw [if_pos hxi] at hx; exact hdead hx
    · rename_i hxi; rw [if_neg hxi] at hx; exact h.dead x hx
  · intro x b hb hw
    rw [Net.set_peer] at hb
    split at hb
    · rename_i hx; subst hx; exact hasked b hb hw
    · exact h.asked x b hb hw
  · intro x j
    have h0 := h.count x j
    have hw : ((net.set i p).peer x).waitingOn = (net.peer x).waitingOn := by
      rw [Net.set_peer]
      split
      · rename_i hx; subst hx; exact hwait
      · rfl
    rw [hw, ← h0, Net.set_peer]
    split
    · rename_i hj; subst hj
      simpa using hcount x
    · rfl

theorem Sound.ask {net : Net n} (h : Sound R net) {i j : Fin n} {c : Caller n} {todo : List (Fin n)}
    (hj : (net.peer i).job = some { caller := c, todo := j :: todo, waiting := false }) :
    Sound R ((net.set i { net.peer i with job := some { caller := c, todo := j :: todo, waiting := true } }).send j
      (.request (.driver i))) := by
  have hown := h i
  have hnone : (net.peer i).waitingOn = none := by unfold Peer.waitingOn; rw [hj]
  have hzero : ∀ y, (net.peer y).callers.count (.driver i) = 0 := by
    intro y
    have := hown.count i y
    rw [hnone] at this
    simpa using this
  have halive : (net.peer i).alive = true := by
    by_contra ha
    have := (hown.dead i (by simpa using ha)).2
    rw [hj] at this; cases this
  -- apart from the counts everything is as before
  have hset : ∀ net' : Net n, net' = net.set i { net.peer i with job := some { caller := c, todo := j :: todo, waiting := true } } →
      Owing R net' j [.driver i] := by
    rintro net' rfl
    refine ⟨?_, ?_, ?_, ?_, ?_, ?_⟩
    · intro x y hy
      rw [Net.set_peer] at hy
      split at hy
      · rename_i hx; subst hx; exact hown.mounts _ y hy
      · exact hown.mounts x y hy
    · intro x b hb y hy
      rw [Net.set_peer] at hb
      split at hb
      · rename_i hx; subst hx
        cases hb
        exact hown.todo _ _ hj y hy
      · exact hown.todo x b hb y hy
    · intro x js hq
      rw [Net.set_peer] at hq
      split at hq
      · rename_i hx; subst hx; exact hown.queued _ js hq
      · exact hown.queued x js hq
    · intro x hx
      rw [Net.set_peer] at hx ⊢
      split
      · rename_i hxi; rw [if_pos hxi] at hx; simp only [halive] at hx; cases hx
      · rename_i hxi; rw [if_neg hxi] at hx; exact hown.dead x hx
    · intro x b hb hw
      rw [Net.set_peer] at hb
      split at hb
      · cases hb; exact List.cons_ne_nil _ _
      · exact hown.asked x b hb hw
    · intro x y
      have hcallers : ((net.set i { net.peer i with job := some { caller := c, todo := j :: todo, waiting := true } }).peer y).callers
          = (net.peer y).callers := by
        rw [Net.set_peer]
        split
        · rename_i hy; subst hy
          simp [Peer.callers, hj]
        · rfl
      rw [hcallers]
      by_cases hx : x = i
      · subst hx
        rw [hzero y]
        simp only [Net.set_peer, if_true, Peer.waitingOn, Option.some.injEq, List.count_singleton_self, eq_comm (a := j)]
        split <;> rfl
      · rw [Net.set_peer, if_neg hx, ← hown.count x y]
        have : (Caller.driver i : Caller n) ≠ .driver x := by simpa using Ne.symm hx
        simp [List.count_cons_of_ne this]
  have hs := hset _ rfl
  generalize net.set i { net.peer i with job := some { caller := c, todo := j :: todo, waiting := true } } = net' at hs ⊢
  unfold Net.send
  split
  · rename_i ha
    refine Owing.sound (i := j) ⟨?_, ?_, ?_, ?_, ?_, ?_⟩
    · intro x y hy
      rw [Net.set_peer] at hy
      split at hy
      · rename_i hx; subst hx; exact hs.mounts _ y hy
      · exact hs.mounts x y hy
    · intro x b hb y hy
      rw [Net.set_peer] at hb
      split at hb
      · rename_i hx; subst hx; exact hs.todo _ b hb y hy
      · exact hs.todo x b hb y hy
    · intro x js hq
      rw [Net.set_peer] at hq
      split at hq
      · rename_i hx; subst hx
        simp only [List.mem_append, List.mem_singleton, reduceCtorEq, or_false] at hq
        exact hs.queued _ js hq
      · exact hs.queued x js hq
    · intro x hx
      rw [Net.set_peer] at hx ⊢
      split
      · rename_i hxi; rw [if_pos hxi] at hx; simp only [ha] at hx; cases hx
      · rename_i hxi; rw [if_neg hxi] at hx; exact hs.dead x hx
    · intro x b hb hw
      rw [Net.set_peer] at hb
      split at hb
      · rename_i hx; subst hx; exact hs.asked _ b hb hw
      · exact hs.asked x b hb hw
    · intro x y
      have hw : ((net'.set j { net'.peer j with queue := (net'.peer j).queue ++ [.request (.driver i)] }).peer x).waitingOn
          = (net'.peer x).waitingOn := by
        rw [Net.set_peer]
        split
        · rename_i hx; subst hx; rfl
        · rfl
      rw [hw, ← hs.count x y, Net.set_peer]
      split
      · rename_i hy; subst hy
        rw [callers_append, List.count_append]
        simp
      · rfl
  · exact (hs.answer false).sound

theorem Sound.turn {net : Net n} (h : Sound R net) (i : Fin n) (order : List Nat) : Sound R (net.turn i order) := by
  have hown := h i
  unfold Net.turn
  simp only
  split
  · rename_i hj
    have hwait : ∀ q m, ({ net.peer i with queue := q, mounts := m } : Peer n).waitingOn = (net.peer i).waitingOn := fun _ _ => rfl
    split
    · exact h
    · rename_i js queue hq
      refine (h.set (cs := []) ?_ ?_ ?_ ?_ ?_ ?_ ?_).sound
      · intro j hm
        rcases List.mem_append.mp hm with hm | hm
        · exact hown.mounts i j hm
        · exact hown.queued i js (by rw [hq]; exact List.mem_cons_self) j hm
      · exact hown.todo i
      · intro js' hm
        exact hown.queued i js' (by rw [hq]; exact List.mem_cons_of_mem _ hm)
      · intro ha
        have := (hown.dead i ha).1
        rw [hq] at this; cases this
      · exact hown.asked i
      · intro x
        simp [Peer.callers, hq]
      · rfl
    · rename_i c queue hq
      refine (h.set (cs := []) ?_ ?_ ?_ ?_ ?_ ?_ ?_).sound
      · exact hown.mounts i
      · intro b hb j hm
        cases hb
        simp only [List.mem_filterMap] at hm
        obtain ⟨a, -, ha⟩ := hm
        exact hown.mounts i j (List.mem_of_getElem? ha)
      · intro js' hm
        exact hown.queued i js' (by rw [hq]; exact List.mem_cons_of_mem _ hm)
      · intro ha
        have := (hown.dead i ha).1
        rw [hq] at this; cases this
      · intro b hb hw
        cases hb; cases hw
      · intro x
        simp [Peer.callers, hq, hj]
      · simp [Peer.waitingOn, hj]
  · rename_i c hj
    refine ((h.set (cs := [c]) ?_ ?_ ?_ ?_ ?_ ?_ ?_).answer true).sound
    · exact hown.mounts i
    · intro b hb; cases hb
    · exact hown.queued i
    · intro ha
      have := (hown.dead i ha).2
      rw [hj] at this; cases this
    · intro b hb; cases hb
    · intro x
      simp [Peer.callers, hj, List.count_cons, Nat.add_comm]
    · simp [Peer.waitingOn, hj]
  · rename_i c j todo hj
    exact h.ask hj
  · exact h

theorem Sound.stop {net : Net n} (h : Sound R net) (i : Fin n) : Sound R (net.stop i) := by
  have hown := h i
  unfold Net.stop
  simp only
  split
  · rename_i hc
    refine ((h.set (cs := (net.peer i).callers) ?_ ?_ ?_ ?_ ?_ ?_ ?_).answers).sound
    · exact hown.mounts i
    · intro b hb; cases hb
    · intro js hq; cases hq
    · exact fun _ => ⟨rfl, rfl⟩
    · intro b hb; cases hb
    · intro x
      simp [Peer.callers]
    · simp only [Bool.and_eq_true, Bool.not_eq_true'] at hc
      unfold Peer.waitingOn
      cases hj : (net.peer i).job with
      | none => rfl
      | some b =>
        have hw : b.waiting = false := by simpa [hj] using hc.2
        obtain ⟨c, todo, w⟩ := b
        simp only at hw
        subst hw
        cases todo <;> rfl
  · exact h

theorem Sound.attach {net : Net n} (h : Sound R net) (i : Fin n) (js : List (Fin n)) (hjs : ∀ j ∈ js, R j i) :
    Sound R (net.attach i js) := by
  have hown := h i
  unfold Net.attach
  simp only
  split
  · refine (h.set (cs := []) ?_ ?_ ?_ ?_ ?_ ?_ ?_).sound
    · intro j hm
      rcases List.mem_append.mp hm with hm | hm
      · exact hown.mounts i j hm
      · exact hjs j hm
    · exact hown.todo i
    · exact hown.queued i
    · exact hown.dead i
    · exact hown.asked i
    · exact fun _ => rfl
    · rfl
  · exact h

theorem Sound.act {net : Net n} (h : Sound R net) (a : Act n)
    (hR : ∀ i js, a = .mount i js ∨ a = .attach i js → ∀ j ∈ js, R j i) : Sound R (net.act a) := by
  cases a with
  | turn i order => exact h.turn i order
  | call i id => exact h.send i _ (by intro js hm; cases hm) (by intro x hm; cases hm)
  | mount i js => exact h.send i _ (by intro js' hm; cases hm; exact hR i js (.inl rfl)) (by intro x hm; cases hm)
  | attach i js => exact h.attach i js (hR i js (.inr rfl))
  | stop i => exact h.stop i

theorem sound (acts : Nat → Act n) (k : Nat) : Sound (MountedIn acts) (state acts k) := by
  induction k with
  | zero =>
    intro i
    refine ⟨?_, ?_, ?_, ?_, ?_, ?_⟩
    · intro x j hj; cases hj
    · intro x b hb; cases hb
    · intro x js hq; cases hq
    · intro x hx; cases hx
    · intro x b hb; cases hb
    · intro x j
      simp [state, Peer.callers, Peer.waitingOn]
  | succ k ih => exact ih.act _ fun i js ha j hj => ⟨k, js, hj, ha⟩

/-! ## Answers -/

/-- The caller has its answer in `net'`, which comes after `net`. -/
def Got (net net' : Net n) : Caller n → Prop
  | .outside id => ∃ new ok, net'.answers = net.answers ++ new ∧ (id, ok) ∈ new
  | .driver i => ∀ b, (net'.peer i).job = some b → b.waiting = false

theorem Net.answer_answers (net : Net n) (c : Caller n) (ok : Bool) :
    ∃ new, (net.answer c ok).answers = net.answers ++ new := by
  cases c with
  | outside id => exact ⟨[(id, ok)], rfl⟩
  | driver j => exact ⟨[], by simp [Net.answer]⟩

theorem Net.fold_answers (cs : List (Caller n)) : ∀ net : Net n,
    ∃ new, (cs.foldl (fun net c => net.answer c false) net).answers = net.answers ++ new := by
  induction cs with
  | nil => exact fun net => ⟨[], by simp⟩
  | cons c cs ih =>
    intro net
    obtain ⟨n1, h1⟩ := Net.answer_answers net c false
    obtain ⟨n2, h2⟩ := ih (net.answer c false)
    exact ⟨n1 ++ n2, by rw [List.foldl_cons, h2, h1, List.append_assoc]⟩

theorem Net.send_answers (net : Net n) (i : Fin n) (m : Msg n) : ∃ new, (net.send i m).answers = net.answers ++ new := by
  unfold Net.send
  split
  · exact ⟨[], by simp⟩
  · cases m with
    | request c => exact Net.answer_answers net c false
    | mount js => exact ⟨[], by simp⟩

theorem Net.act_answers (net : Net n) (a : Act n) : ∃ new, (net.act a).answers = net.answers ++ new := by
  cases a with
  | turn i order =>
    simp only [Net.act, Net.turn]
    split
    · split <;> exact ⟨[], by simp⟩
    · exact Net.answer_answers (net.set i _) _ true
    · exact Net.send_answers (net.set i _) _ _
    · exact ⟨[], by simp⟩
  | call i id => exact Net.send_answers ..
  | mount i js => exact Net.send_answers ..
  | attach i js =>
    simp only [Net.act, Net.attach]
    split <;> exact ⟨[], by simp⟩
  | stop i =>
    simp only [Net.act, Net.stop]
    split
    · exact Net.fold_answers _ (net.set i _)
    · exact ⟨[], by simp⟩

theorem state_answers (acts : Nat → Act n) {k m : Nat} (h : k ≤ m) :
    ∃ new, (state acts m).answers = (state acts k).answers ++ new := by
  induction m, h using Nat.le_induction with
  | base => exact ⟨[], by simp⟩
  | succ m _ ih =>
    obtain ⟨n1, h1⟩ := ih
    obtain ⟨n2, h2⟩ := Net.act_answers (state acts m) (acts m)
    exact ⟨n1 ++ n2, by rw [state, h2, h1, List.append_assoc]⟩

@[simp] theorem Peer.resume_resume (p : Peer n) : p.resume.resume = p.resume := by
  unfold Peer.resume
  cases p.job with
  | none => rfl
  | some b =>
    by_cases hw : b.waiting <;> simp [hw]

theorem Net.fold_peer (cs : List (Caller n)) (i : Fin n) : ∀ net : Net n,
    (cs.foldl (fun net c => net.answer c false) net).peer i =
      if .driver i ∈ cs then (net.peer i).resume else net.peer i := by
  induction cs with
  | nil => intro net; simp
  | cons c cs ih =>
    intro net
    rw [List.foldl_cons, ih, Net.answer_peer]
    by_cases hc : c = .driver i
    · simp [hc]
    · have : (Caller.driver i = c) = False := by simpa using Ne.symm hc
      simp [hc, this]

/-- What is left of a job, as a number. -/
def Job.left (b : Job n) : Nat := 2 * b.todo.length + if b.waiting then 0 else 1

/-- The job has come closer to its end. -/
def Job.Closer (b' b : Job n) : Prop := b'.caller = b.caller ∧ b'.left < b.left

theorem Peer.resume_cases {p : Peer n} {b : Job n} (hb : p.job = some b) (hne : b.waiting = true → b.todo ≠ []) :
    (b.waiting = false ∧ p.resume.job = some b) ∨ ∃ b', p.resume.job = some b' ∧ b'.Closer b := by
  unfold Peer.resume
  simp only [hb, Option.map_some, Option.some.injEq]
  by_cases hw : b.waiting
  · right
    refine ⟨_, rfl, ?_⟩
    rw [if_pos hw]
    refine ⟨rfl, ?_⟩
    have := hne hw
    have hl : 0 < b.todo.length := List.length_pos_iff.mpr this
    simp only [Job.left, hw, List.length_tail, if_true, Bool.false_eq_true, if_false]
    omega
  · left
    rw [if_neg hw]
    exact ⟨by simpa using hw, rfl⟩

theorem got_answer {net₀ net : Net n} (hans : net.answers = net₀.answers) (c : Caller n) (ok : Bool) :
    Got net₀ (net.answer c ok) c := by
  cases c with
  | outside id => exact ⟨[(id, ok)], ok, by simp [Net.answer, hans], by simp⟩
  | driver i =>
    intro b hb
    rw [Net.answer_peer, if_pos rfl] at hb
    exact (Peer.resume_job hb).1

theorem fold_outside {cs : List (Caller n)} {id : Nat} (h : .outside id ∈ cs) : ∀ net : Net n,
    ∃ new, (cs.foldl (fun net c => net.answer c false) net).answers = net.answers ++ new ∧ (id, false) ∈ new := by
  induction cs with
  | nil => cases h
  | cons c cs ih =>
    intro net
    rw [List.foldl_cons]
    rcases List.mem_cons.mp h with h | h
    · subst h
      obtain ⟨n2, h2⟩ := Net.fold_answers cs (net.answer (.outside id) false)
      exact ⟨(id, false) :: n2, by rw [h2]; simp [Net.answer], by simp⟩
    · obtain ⟨n2, h2, hm⟩ := ih h (net.answer c false)
      obtain ⟨n1, h1⟩ := Net.answer_answers net c false
      exact ⟨n1 ++ n2, by rw [h2, h1, List.append_assoc], List.mem_append_right _ hm⟩

theorem got_fold {net₀ net : Net n} (hans : net.answers = net₀.answers) {cs : List (Caller n)} {c : Caller n} (hc : c ∈ cs) :
    Got net₀ (cs.foldl (fun net c => net.answer c false) net) c := by
  cases c with
  | outside id =>
    obtain ⟨new, h, hm⟩ := fold_outside hc net
    exact ⟨new, false, by rw [h, hans], hm⟩
  | driver i =>
    intro b hb
    rw [Net.fold_peer, if_pos hc] at hb
    exact (Peer.resume_job hb).1

/-! ## One step -/

theorem Net.send_job (net : Net n) (j : Fin n) (m : Msg n) (i : Fin n) :
    ((net.send j m).peer i).job = (net.peer i).job ∨
      ((net.send j m).peer i).job = (net.peer i).resume.job := by
  unfold Net.send
  split
  · left
    rw [Net.set_peer]
    split
    · rename_i h; subst h; rfl
    · rfl
  · cases m with
    | mount js => exact .inl rfl
    | request c =>
      simp only [Net.answer_peer]
      split
      · exact .inr rfl
      · exact .inl rfl

/-- What a step does to the job of a driver. -/
theorem Sound.step_job {net : Net n} (h : Sound R net) {i : Fin n} {b : Job n} (hb : (net.peer i).job = some b) (a : Act n) :
    (((net.act a).peer i).job = some b ∧ ∀ order, a = .turn i order → b.waiting = true) ∨
    (∃ b', ((net.act a).peer i).job = some b' ∧ b'.Closer b) ∨
    (((net.act a).peer i).job = none ∧ Got net (net.act a) b.caller) := by
  have hne := (h i).asked i b hb
  -- a message or an answer for driver `i`
  have hsend : ∀ (net' : Net n) j m, net'.peer i = net.peer i →
      ((net'.send j m).peer i).job = some b ∨ ∃ b', ((net'.send j m).peer i).job = some b' ∧ b'.Closer b := by
    intro net' j m he
    rcases Net.send_job net' j m i with hs | hs <;> rw [hs, he]
    · exact .inl hb
    · rcases Peer.resume_cases hb hne with hr | hr
      · exact .inl hr.2
      · exact .inr hr
  have hans : ∀ (net' : Net n) c ok, net'.peer i = net.peer i →
      ((net'.answer c ok).peer i).job = some b ∨ ∃ b', ((net'.answer c ok).peer i).job = some b' ∧ b'.Closer b := by
    intro net' c ok he
    rw [Net.answer_peer, he]
    split
    · rcases Peer.resume_cases hb hne with hr | hr
      · exact .inl hr.2
      · exact .inr hr
    · exact .inl hb
  have hother : ∀ {p : Prop}, (((net.act a).peer i).job = some b ∨ ∃ b', ((net.act a).peer i).job = some b' ∧ b'.Closer b) →
      (∀ order, a ≠ .turn i order) →
      (((net.act a).peer i).job = some b ∧ ∀ order, a = .turn i order → b.waiting = true) ∨
      (∃ b', ((net.act a).peer i).job = some b' ∧ b'.Closer b) ∨ p := by
    intro p hx hn
    rcases hx with hx | hx
    · exact .inl ⟨hx, fun order ho => absurd ho (hn order)⟩
    · exact .inr (.inl hx)
  cases a with
  | call j id => exact hother (hsend net j _ rfl) (by intro order ho; cases ho)
  | mount j js => exact hother (hsend net j _ rfl) (by intro order ho; cases ho)
  | attach j js =>
    refine hother ?_ (by intro order ho; cases ho)
    left
    simp only [Net.act, Net.attach]
    split
    · rw [Net.set_peer]
      split
      · rename_i hx; subst hx; exact hb
      · exact hb
    · exact hb
  | stop j =>
    simp only [Net.act, Net.stop]
    split
    · by_cases hij : i = j
      · subst hij
        right; right
        constructor
        · rw [Net.fold_peer]
          split <;> simp [Peer.resume]
        · exact got_fold (by simp) (by simp [Peer.callers, hb])
      · have he : (net.set j { net.peer j with queue := [], job := none, alive := false }).peer i = net.peer i := by
          rw [Net.set_peer, if_neg hij]
        rw [Net.fold_peer, he]
        split
        · rcases Peer.resume_cases hb hne with hr | hr
          · exact .inl ⟨hr.2, by intro order ho; cases ho⟩
          · exact .inr (.inl hr)
        · exact .inl ⟨hb, by intro order ho; cases ho⟩
    · exact .inl ⟨hb, by intro order ho; cases ho⟩
  | turn j order =>
    by_cases hij : j = i
    · subst hij
      simp only [Net.act, Net.turn]
      obtain ⟨c, todo, w⟩ := b
      rw [hb]
      cases w with
      | true => exact .inl ⟨by cases todo <;> exact hb, fun _ _ => rfl⟩
      | false =>
        cases todo with
        | nil =>
          right; right
          constructor
          · simp only [Net.answer_peer, Net.set_peer, if_true]
            split <;> simp [Peer.resume]
          · exact got_answer (by simp) c true
        | cons x todo =>
          right; left
          simp only
          set net' := net.set j { net.peer j with job := some { caller := c, todo := x :: todo, waiting := true } } with hnet
          have hj' : (net'.peer j).job = some { caller := c, todo := x :: todo, waiting := true } := by
            rw [hnet, Net.set_peer, if_pos rfl]
          rcases Net.send_job net' x (.request (.driver j)) j with hs | hs <;> rw [hs]
          · exact ⟨_, hj', rfl, by simp [Job.left]⟩
          · simp only [Peer.resume, hj', Option.map_some, if_true]
            exact ⟨_, rfl, rfl, by simp [Job.left]⟩
    · refine hother ?_ (by intro order' ho; cases ho; exact hij rfl)
      have he : ∀ p, (net.set j p).peer i = net.peer i := fun p => by rw [Net.set_peer, if_neg (Ne.symm hij)]
      simp only [Net.act, Net.turn]
      split
      · left
        split
        · exact hb
        · rw [he]; exact hb
        · rw [he]; exact hb
      · exact hans _ _ _ (he _)
      · exact hsend _ _ _ (he _)
      · exact .inl hb

theorem Net.send_queue (net : Net n) (j : Fin n) (m : Msg n) (i : Fin n) :
    ∃ more, ((net.send j m).peer i).queue = (net.peer i).queue ++ more := by
  unfold Net.send
  split
  · rw [Net.set_peer]
    split
    · rename_i h; subst h; exact ⟨[m], rfl⟩
    · exact ⟨[], by simp⟩
  · cases m with
    | mount js => exact ⟨[], by simp⟩
    | request c =>
      refine ⟨[], ?_⟩
      simp only [Net.answer_peer]
      split <;> simp

theorem Net.answer_queue (net : Net n) (c : Caller n) (ok : Bool) (i : Fin n) :
    ((net.answer c ok).peer i).queue = (net.peer i).queue := by
  rw [Net.answer_peer]
  split <;> simp

theorem resume_none {p : Peer n} (h : p.job = none) : p.resume.job = none := by simp [Peer.resume, h]

/-- What a step does to a request in the queue of a driver. -/
theorem step_queue (net : Net n) {i : Fin n} {c : Caller n} {pre post : List (Msg n)}
    (hq : (net.peer i).queue = pre ++ .request c :: post) (a : Act n) :
    ((∃ post', ((net.act a).peer i).queue = pre ++ .request c :: post') ∧
      ((net.peer i).job = none → ((net.act a).peer i).job = none ∧ ∀ order, a ≠ .turn i order)) ∨
    (∃ m pre' post', pre = m :: pre' ∧ ((net.act a).peer i).queue = pre' ++ .request c :: post') ∨
    (∃ b, ((net.act a).peer i).job = some b ∧ b.caller = c) ∨
    Got net (net.act a) c := by
  have hsend : ∀ (net' : Net n) j m, (net'.peer i).queue = (net.peer i).queue → (net'.peer i).job = (net.peer i).job →
      (∃ post', ((net'.send j m).peer i).queue = pre ++ .request c :: post') ∧
      ((net.peer i).job = none → ((net'.send j m).peer i).job = none) := by
    intro net' j m he hj
    constructor
    · obtain ⟨more, hs⟩ := Net.send_queue net' j m i
      exact ⟨post ++ more, by rw [hs, he, hq]; simp⟩
    · intro hnone
      rcases Net.send_job net' j m i with hs | hs <;> rw [hs]
      · rw [hj, hnone]
      · exact resume_none (by rw [hj, hnone])
  have hans : ∀ (net' : Net n) c' ok, (net'.peer i).queue = (net.peer i).queue → (net'.peer i).job = (net.peer i).job →
      (∃ post', ((net'.answer c' ok).peer i).queue = pre ++ .request c :: post') ∧
      ((net.peer i).job = none → ((net'.answer c' ok).peer i).job = none) := by
    intro net' c' ok he hj
    constructor
    · exact ⟨post, by rw [Net.answer_queue, he, hq]⟩
    · intro hnone
      rw [Net.answer_peer]
      split
      · exact resume_none (by rw [hj, hnone])
      · rw [hj, hnone]
  cases a with
  | call j id => exact .inl ⟨(hsend net j _ rfl rfl).1, fun hn => ⟨(hsend net j _ rfl rfl).2 hn, by intro o ho; cases ho⟩⟩
  | mount j js => exact .inl ⟨(hsend net j _ rfl rfl).1, fun hn => ⟨(hsend net j _ rfl rfl).2 hn, by intro o ho; cases ho⟩⟩
  | attach j js =>
    left
    simp only [Net.act, Net.attach]
    split
    · rw [Net.set_peer]
      split
      · rename_i hx; subst hx; exact ⟨⟨post, hq⟩, fun hn => ⟨hn, by intro o ho; cases ho⟩⟩
      · exact ⟨⟨post, hq⟩, fun hn => ⟨hn, by intro o ho; cases ho⟩⟩
    · exact ⟨⟨post, hq⟩, fun hn => ⟨hn, by intro o ho; cases ho⟩⟩
  | stop j =>
    simp only [Net.act, Net.stop]
    split
    · by_cases hij : i = j
      · subst hij
        right; right; right
        exact got_fold (by simp) (by simp [Peer.callers, hq])
      · left
        have he : (net.set j { net.peer j with queue := [], job := none, alive := false }).peer i = net.peer i := by
          rw [Net.set_peer, if_neg hij]
        rw [Net.fold_peer, he]
        split
        · exact ⟨⟨post, hq⟩, fun hn => ⟨resume_none hn, by intro o ho; cases ho⟩⟩
        · exact ⟨⟨post, hq⟩, fun hn => ⟨hn, by intro o ho; cases ho⟩⟩
    · exact .inl ⟨⟨post, hq⟩, fun hn => ⟨hn, by intro o ho; cases ho⟩⟩
  | turn j order =>
    by_cases hij : j = i
    · subst hij
      simp only [Net.act, Net.turn]
      split
      · rename_i hj
        rw [hq]
        cases pre with
        | nil =>
          right; right; left
          simp only [List.nil_append, Net.set_peer, if_true]
          exact ⟨_, rfl, rfl⟩
        | cons m pre =>
          right; left
          cases m with
          | mount js =>
            simp only [List.cons_append, Net.set_peer, if_true]
            exact ⟨_, pre, post, rfl, rfl⟩
          | request c' =>
            simp only [List.cons_append, Net.set_peer, if_true]
            exact ⟨_, pre, post, rfl, rfl⟩
      · rename_i c' hj
        left
        refine ⟨⟨post, ?_⟩, fun hn => by rw [hj] at hn; cases hn⟩
        rw [Net.answer_queue, Net.set_peer, if_pos rfl]
        exact hq
      · rename_i c' x todo hj
        left
        refine ⟨?_, fun hn => by rw [hj] at hn; cases hn⟩
        set net' := net.set j { net.peer j with job := some { caller := c', todo := x :: todo, waiting := true } } with hnet
        obtain ⟨more, hs⟩ := Net.send_queue net' x (.request (.driver j)) j
        refine ⟨post ++ more, ?_⟩
        rw [hs, hnet, Net.set_peer, if_pos rfl]
        simp [hq]
      · rename_i hj
        exact .inl ⟨⟨post, hq⟩, fun hn => by rw [hj] at hn; cases hn⟩
    · have he : ∀ p, (net.set j p).peer i = net.peer i := fun p => by rw [Net.set_peer, if_neg (Ne.symm hij)]
      have hno : ∀ o, Act.turn j order ≠ .turn i o := by intro o ho; cases ho; exact hij rfl
      left
      simp only [Net.act, Net.turn]
      split
      · split
        · exact ⟨⟨post, hq⟩, fun hn => ⟨hn, hno⟩⟩
        · rw [he]; exact ⟨⟨post, hq⟩, fun hn => ⟨hn, hno⟩⟩
        · rw [he]; exact ⟨⟨post, hq⟩, fun hn => ⟨hn, hno⟩⟩
      · exact ⟨(hans _ _ _ (by rw [he]) (by rw [he])).1, fun hn => ⟨(hans _ _ _ (by rw [he]) (by rw [he])).2 hn, hno⟩⟩
      · exact ⟨(hsend _ _ _ (by rw [he]) (by rw [he])).1, fun hn => ⟨(hsend _ _ _ (by rw [he]) (by rw [he])).2 hn, hno⟩⟩
      · exact ⟨⟨post, hq⟩, fun hn => ⟨hn, hno⟩⟩

/-! ## Every caller gets its answer -/

/-- Something stays true until it is left in one way or another. -/
theorem until_left {P E : Nat → Prop} (hstep : ∀ k, P k → P (k + 1) ∨ E k) {k m : Nat} (hk : P k) (hm : k ≤ m) :
    P m ∨ ∃ x, k ≤ x ∧ x < m ∧ E x := by
  induction m, hm using Nat.le_induction with
  | base => exact .inl hk
  | succ m hkm ih =>
    rcases ih with h | ⟨x, h1, h2, h3⟩
    · rcases hstep m h with h | h
      · exact .inl h
      · exact .inr ⟨m, hkm, by omega, h⟩
    · exact .inr ⟨x, h1, by omega, h3⟩

/-- Everybody who waits for driver `j` gets an answer. -/
def Answers (acts : Nat → Act n) (j : Fin n) : Prop :=
  ∀ k c, c ∈ ((state acts k).peer j).callers → ∃ m, k ≤ m ∧ Got (state acts m) (state acts (m + 1)) c

variable {acts : Nat → Act n}

/-- A job comes to an end if the drivers that are mounted answer. -/
theorem job_ends (hfair : Fair acts) {i : Fin n} (hlow : ∀ j, MountedIn acts j i → Answers acts j) :
    ∀ (l : Nat) (b : Job n), b.left = l → ∀ k, ((state acts k).peer i).job = some b →
      ∃ m, k ≤ m ∧ ((state acts (m + 1)).peer i).job = none ∧ Got (state acts m) (state acts (m + 1)) b.caller := by
  intro l
  induction l using Nat.strongRecOn with
  | ind l ih =>
    intro b hl k hb
    -- there is a time at which the job changes
    have hchange : ∃ m, k ≤ m ∧ ((state acts m).peer i).job = some b ∧ ((state acts (m + 1)).peer i).job ≠ some b := by
      by_contra hno
      have hall : ∀ m, k ≤ m → ((state acts m).peer i).job = some b := by
        intro m hm
        induction m, hm using Nat.le_induction with
        | base => exact hb
        | succ m hm ihm =>
          by_contra hne
          exact hno ⟨m, hm, ihm, hne⟩
      by_cases hw : b.waiting = true
      · have hs := sound acts k i
        have hne := hs.asked i b hb hw
        obtain ⟨c, todo, w⟩ := b
        cases todo with
        | nil => exact hne rfl
        | cons j todo =>
          simp only at hw
          subst hw
          have hon : ((state acts k).peer i).waitingOn = some j := by simp [Peer.waitingOn, hb]
          have hcount := hs.count i j
          rw [hon] at hcount
          simp only [if_true, List.count_nil, ite_self, Nat.add_zero] at hcount
          have hmem : .driver i ∈ ((state acts k).peer j).callers := List.count_pos_iff.mp (by omega)
          obtain ⟨m, hkm, hgot⟩ := hlow j (hs.todo i _ hb j List.mem_cons_self) k _ hmem
          have := hgot _ (hall (m + 1) (by omega))
          cases this
      · obtain ⟨m, hkm, order, ha⟩ := hfair i k
        rcases (sound acts m).step_job (hall m hkm) (acts m) with h | ⟨b', h, hc⟩ | h
        · exact hw (h.2 order ha)
        · have h2 := hall (m + 1) (by omega)
          rw [state, h] at h2
          cases h2
          exact absurd hc.2 (by omega)
        · have h2 := hall (m + 1) (by omega)
          rw [state, h.1] at h2
          cases h2
    obtain ⟨m, hkm, hm, hm'⟩ := hchange
    rcases (sound acts m).step_job hm (acts m) with h | ⟨b', h, hc⟩ | h
    · exact absurd h.1 hm'
    · obtain ⟨m₂, hm2, hn, hg⟩ := ih b'.left (by rw [← hl]; exact hc.2) b' rfl (m + 1) h
      exact ⟨m₂, by omega, hn, by rw [← hc.1]; exact hg⟩
    · exact ⟨m, hkm, h.1, h.2⟩

/-- A request in the queue is answered if the drivers that are mounted answer. -/
theorem request_ends (hfair : Fair acts) {i : Fin n} (hlow : ∀ j, MountedIn acts j i → Answers acts j) (c : Caller n) :
    ∀ (pre post : List (Msg n)) k, ((state acts k).peer i).queue = pre ++ .request c :: post →
      ∃ m, k ≤ m ∧ Got (state acts m) (state acts (m + 1)) c := by
  intro pre
  induction pre with
  | nil =>
    intro post k hq
    refine ends [] (fun pre' post' k' h _ => ?_) post k hq
    cases h
  | cons m pre ih =>
    intro post k hq
    refine ends (m :: pre) (fun pre' post' k' h hq' => ?_) post k hq
    obtain ⟨m₂, h2, h3⟩ := ih post' k' (by cases h; exact hq')
    exact ⟨m₂, h2, h3⟩
where
  /-- If all is well once the message in front is gone, then all is well. -/
  ends (pre : List (Msg n)) (ih : ∀ {m : Msg n} pre' post k, pre = m :: pre' →
        ((state acts k).peer i).queue = pre' ++ .request c :: post → ∃ m, k ≤ m ∧ Got (state acts m) (state acts (m + 1)) c)
      (post : List (Msg n)) (k : Nat) (hq : ((state acts k).peer i).queue = pre ++ .request c :: post) :
      ∃ m, k ≤ m ∧ Got (state acts m) (state acts (m + 1)) c := by
    -- what happens when the front of the queue changes
    let Front : Nat → Prop := fun k => ∃ post, ((state acts k).peer i).queue = pre ++ .request c :: post
    let Left : Nat → Prop := fun k =>
      (∃ m pre' post', pre = m :: pre' ∧ ((state acts (k + 1)).peer i).queue = pre' ++ .request c :: post') ∨
      (∃ b, ((state acts (k + 1)).peer i).job = some b ∧ b.caller = c) ∨
      Got (state acts k) (state acts (k + 1)) c
    have hleft : ∀ k, Left k → ∃ m, k ≤ m ∧ Got (state acts m) (state acts (m + 1)) c := by
      intro k hl
      rcases hl with ⟨m, pre', post', hp, hq'⟩ | ⟨b, hb, rfl⟩ | hg
      · obtain ⟨m₂, h1, h2⟩ := ih pre' post' (k + 1) hp hq'
        exact ⟨m₂, by omega, h2⟩
      · obtain ⟨m₂, h1, -, h2⟩ := job_ends hfair hlow _ b rfl (k + 1) hb
        exact ⟨m₂, by omega, h2⟩
      · exact ⟨k, le_rfl, hg⟩
    have hstep : ∀ k, Front k → Front (k + 1) ∨ Left k := by
      rintro k ⟨post, hq⟩
      rcases step_queue (state acts k) hq (acts k) with h | h | h | h
      · exact .inl h.1
      · exact .inr (.inl h)
      · exact .inr (.inr (.inl h))
      · exact .inr (.inr (.inr h))
    -- while there is no job
    have hfree : ∀ k, Front k → ((state acts k).peer i).job = none → ∃ m, k ≤ m ∧ Left m := by
      intro k hf hn
      obtain ⟨m, hkm, order, ha⟩ := hfair i k
      have hstep' : ∀ k, (Front k ∧ ((state acts k).peer i).job = none) →
          (Front (k + 1) ∧ ((state acts (k + 1)).peer i).job = none) ∨ Left k := by
        rintro k ⟨⟨post, hq⟩, hn⟩
        rcases step_queue (state acts k) hq (acts k) with h | h | h | h
        · exact .inl ⟨h.1, (h.2 hn).1⟩
        · exact .inr (.inl h)
        · exact .inr (.inr (.inl h))
        · exact .inr (.inr (.inr h))
      rcases until_left hstep' ⟨hf, hn⟩ hkm with ⟨⟨post, hq⟩, hn'⟩ | ⟨x, h1, -, h3⟩
      · refine ⟨m, hkm, ?_⟩
        rcases step_queue (state acts m) hq (acts m) with h | h | h | h
        · exact absurd ha ((h.2 hn').2 order)
        · exact .inl h
        · exact .inr (.inl h)
        · exact .inr (.inr h)
      · exact ⟨x, h1, h3⟩
    have hend : ∃ m, k ≤ m ∧ Left m := by
      cases hj : ((state acts k).peer i).job with
      | none => exact hfree k ⟨post, hq⟩ hj
      | some b =>
        obtain ⟨m, hkm, hn, -⟩ := job_ends hfair hlow _ b rfl k hj
        rcases until_left hstep ⟨post, hq⟩ (show k ≤ m + 1 by omega) with h | ⟨x, h1, -, h3⟩
        · obtain ⟨m₂, h1, h2⟩ := hfree (m + 1) h hn
          exact ⟨m₂, by omega, h2⟩
        · exact ⟨x, h1, h3⟩
    obtain ⟨m, hkm, hl⟩ := hend
    obtain ⟨m₂, h1, h2⟩ := hleft m hl
    exact ⟨m₂, by omega, h2⟩

theorem answers_of_mounted (hfair : Fair acts) {i : Fin n} (hlow : ∀ j, MountedIn acts j i → Answers acts j) :
    Answers acts i := by
  intro k c hc
  simp only [Peer.callers, List.mem_append, List.mem_map, Option.mem_toList, List.mem_filterMap] at hc
  rcases hc with ⟨b, hb, rfl⟩ | ⟨m, hm, hmc⟩
  · obtain ⟨m, h1, -, h2⟩ := job_ends hfair hlow _ b rfl k hb
    exact ⟨m, h1, h2⟩
  · cases m with
    | mount js => cases hmc
    | request c' =>
      cases hmc
      obtain ⟨pre, post, hq⟩ := List.append_of_mem hm
      exact request_ends hfair hlow c pre post k hq

theorem answers_of_acyclic (hfair : Fair acts) (hac : Acyclic acts) (i : Fin n) : Answers acts i := by
  have : Std.Irrefl (Relation.TransGen (MountedIn acts)) := ⟨hac⟩
  have hwf : WellFounded (Relation.TransGen (MountedIn acts)) := Finite.wellFounded_of_trans_of_irrefl _
  induction i using hwf.induction with
  | _ i ih => exact answers_of_mounted hfair fun j hj => ih j (.single hj)

/-! ## Drivers that wait for each other never answer -/

theorem waiting_of_waitingOn {p : Peer n} {j : Fin n} (h : p.waitingOn = some j) : ∃ b, p.job = some b ∧ b.waiting = true := by
  unfold Peer.waitingOn at h
  split at h
  · rename_i hj; exact ⟨_, hj, rfl⟩
  · cases h

theorem waitingOn_of_caller {net : Net n} (h : Sound R net) {x i : Fin n} (hc : .driver i ∈ (net.peer x).callers) :
    (net.peer i).waitingOn = some x := by
  have h0 := (h x).count i x
  have h1 := List.count_pos_iff.mpr hc
  by_contra hne
  rw [if_neg hne] at h0
  omega

/-- A driver that waits for one that waits itself goes on waiting. -/
theorem Sound.blocked {net : Net n} (h : Sound R net) {i j y : Fin n} (hi : (net.peer i).waitingOn = some j)
    (hj : (net.peer j).waitingOn = some y) (a : Act n) : ((net.act a).peer i).job = (net.peer i).job := by
  obtain ⟨b, hb, hw⟩ := waiting_of_waitingOn hi
  obtain ⟨b', hb', hw'⟩ := waiting_of_waitingOn hj
  have hsend : ∀ (net' : Net n) x m, (net'.peer i).job = (net.peer i).job → m ≠ .request (.driver i) →
      ((net'.send x m).peer i).job = (net.peer i).job := by
    intro net' x m he hm
    unfold Net.send
    split
    · rw [Net.set_peer]
      split
      · rename_i hx; subst hx; exact he
      · exact he
    · cases m with
      | mount js => exact he
      | request c =>
        simp only [Net.answer_peer]
        rw [if_neg (fun hc => hm (by rw [hc]))]
        exact he
  cases a with
  | call x id => exact hsend net x _ rfl (by intro hm; cases hm)
  | mount x js => exact hsend net x _ rfl (by intro hm; cases hm)
  | attach x js =>
    simp only [Net.act, Net.attach]
    split
    · rw [Net.set_peer]
      split
      · rename_i hx; subst hx; rfl
      · rfl
    · rfl
  | stop x =>
    simp only [Net.act, Net.stop]
    split
    · rename_i hc
      simp only [Bool.and_eq_true, Bool.not_eq_true'] at hc
      have hix : i ≠ x := by
        rintro rfl
        have := hc.2
        simp [hb, hw] at this
      have hnot : .driver i ∉ (net.peer x).callers := by
        intro hm
        have hx := waitingOn_of_caller h hm
        rw [hi] at hx
        cases hx
        have := hc.2
        simp [hb', hw'] at this
      rw [Net.fold_peer, if_neg hnot, Net.set_peer, if_neg hix]
    · rfl
  | turn x order =>
    simp only [Net.act, Net.turn]
    have hother : (net.peer x).waitingOn = none → ∀ p, (net.set x p).peer i = net.peer i := by
      intro hx p
      rw [Net.set_peer, if_neg]
      rintro rfl
      rw [hx] at hi; cases hi
    split
    · rename_i hx
      have hx' : (net.peer x).waitingOn = none := by simp [Peer.waitingOn, hx]
      split
      · rfl
      · rw [hother hx']
      · rw [hother hx']
    · rename_i c hx
      have hx' : (net.peer x).waitingOn = none := by simp [Peer.waitingOn, hx]
      rw [Net.answer_peer, if_neg, hother hx']
      rintro rfl
      have := waitingOn_of_caller h (x := x) (i := i) (by simp [Peer.callers, hx])
      rw [hi] at this
      cases this
      rw [hj] at hx'; cases hx'
    · rename_i c z todo hx
      have hx' : (net.peer x).waitingOn = none := by simp [Peer.waitingOn, hx]
      refine hsend _ z _ (by rw [hother hx']) ?_
      intro hm
      cases hm
      rw [hi] at hx'; cases hx'
    · rfl

/-- Where a call from outside can be. -/
theorem Net.send_callers (net : Net n) (j : Fin n) (m : Msg n) (x : Fin n) {c : Caller n}
    (h : c ∈ ((net.send j m).peer x).callers) : c ∈ (net.peer x).callers ∨ (x = j ∧ m = .request c) := by
  unfold Net.send at h
  split at h
  · rw [Net.set_peer] at h
    split at h
    · rename_i hx; subst hx
      rw [callers_append] at h
      rcases List.mem_append.mp h with h | h
      · exact .inl h
      · cases m with
        | mount js => cases h
        | request c' =>
          simp only [List.mem_singleton] at h
          exact .inr ⟨rfl, by rw [h]⟩
    · exact .inl h
  · cases m with
    | mount js => exact .inl h
    | request c' =>
      simp only [Net.answer_peer] at h
      split at h
      · rw [Peer.resume_callers] at h; exact .inl h
      · exact .inl h

theorem Net.act_callers (net : Net n) (a : Act n) (x : Fin n) {id : Nat}
    (h : .outside id ∈ ((net.act a).peer x).callers) : .outside id ∈ (net.peer x).callers ∨ a = .call x id := by
  have hset : ∀ {i p}, (∀ c, c ∈ p.callers → c ∈ (net.peer i).callers) → .outside id ∈ ((net.set i p).peer x).callers →
      .outside id ∈ (net.peer x).callers := by
    intro i p hp hm
    rw [Net.set_peer] at hm
    split at hm
    · rename_i hx; subst hx; exact hp _ hm
    · exact hm
  have hans : ∀ (net' : Net n) c ok, ((net'.answer c ok).peer x).callers = (net'.peer x).callers := by
    intro net' c ok
    rw [Net.answer_peer]
    split <;> simp
  cases a with
  | call i id' =>
    rcases Net.send_callers net i _ x h with h | ⟨rfl, hm⟩
    · exact .inl h
    · cases hm; exact .inr rfl
  | mount i js =>
    rcases Net.send_callers net i _ x h with h | ⟨rfl, hm⟩
    · exact .inl h
    · cases hm
  | attach i js =>
    simp only [Net.act, Net.attach] at h
    split at h
    · exact .inl (hset (i := i) (p := { net.peer i with mounts := (net.peer i).mounts ++ js }) (fun c hc => hc) h)
    · exact .inl h
  | stop i =>
    left
    simp only [Net.act, Net.stop] at h
    split at h
    · rw [Net.fold_peer] at h
      refine hset (i := i) (p := { net.peer i with queue := [], job := none, alive := false }) ?_ ?_
      · intro c hc; simp [Peer.callers] at hc
      · split at h
        · rwa [Peer.resume_callers] at h
        · exact h
    · exact h
  | turn i order =>
    left
    simp only [Net.act, Net.turn] at h
    split at h
    · rename_i hj
      split at h
      · exact h
      · rename_i hq
        refine hset ?_ h
        intro c hc
        simpa [Peer.callers, hj, hq] using hc
      · rename_i hq
        refine hset ?_ h
        intro c hc
        simpa [Peer.callers, hj, hq] using hc
    · rename_i hj
      rw [hans] at h
      refine hset ?_ h
      intro c hc
      simp only [Peer.callers, Option.toList_none, List.map_nil, List.nil_append] at hc
      exact List.mem_append_right _ hc
    · rename_i hj
      rcases Net.send_callers _ _ _ x h with h | ⟨rfl, hm⟩
      · refine hset ?_ h
        intro c hc
        simpa [Peer.callers, hj] using hc
      · cases hm
    · exact h

/-- Who answers a call from outside. -/
theorem Net.act_answered (net : Net n) (a : Act n) {id : Nat} {ok : Bool} (h : (id, ok) ∈ (net.act a).answers) :
    (id, ok) ∈ net.answers ∨ (∃ x, .outside id ∈ (net.peer x).callers ∧ (net.peer x).waitingOn = none) ∨
      ∃ x, a = .call x id ∧ (net.peer x).alive = false := by
  have hans : ∀ (net' : Net n) c ok', (id, ok) ∈ (net'.answer c ok').answers → (id, ok) ∈ net'.answers ∨ c = .outside id := by
    intro net' c ok' hm
    cases c with
    | outside id' =>
      simp only [Net.answer, List.mem_append, List.mem_singleton, Prod.mk.injEq] at hm
      rcases hm with hm | ⟨rfl, -⟩
      · exact .inl hm
      · exact .inr rfl
    | driver j => exact .inl hm
  have hfold : ∀ (cs : List (Caller n)) (net' : Net n), (id, ok) ∈ (cs.foldl (fun net c => net.answer c false) net').answers →
      (id, ok) ∈ net'.answers ∨ .outside id ∈ cs := by
    intro cs
    induction cs with
    | nil => exact fun net' hm => .inl hm
    | cons c cs ih =>
      intro net' hm
      rcases ih _ hm with hm | hm
      · rcases hans _ _ _ hm with hm | rfl
        · exact .inl hm
        · exact .inr List.mem_cons_self
      · exact .inr (List.mem_cons_of_mem _ hm)
  have hsend : ∀ (net' : Net n) j m, (id, ok) ∈ (net'.send j m).answers →
      (id, ok) ∈ net'.answers ∨ (m = .request (.outside id) ∧ (net'.peer j).alive = false) := by
    intro net' j m hm
    unfold Net.send at hm
    split at hm
    · exact .inl hm
    · rename_i ha
      cases m with
      | mount js => exact .inl hm
      | request c =>
        rcases hans _ _ _ hm with hm | rfl
        · exact .inl hm
        · exact .inr ⟨rfl, by simpa using ha⟩
  cases a with
  | call x id' =>
    rcases hsend _ _ _ h with h | ⟨h, ha⟩
    · exact .inl h
    · cases h; exact .inr (.inr ⟨x, rfl, ha⟩)
  | mount x js =>
    rcases hsend _ _ _ h with h | ⟨h, ha⟩
    · exact .inl h
    · cases h
  | attach x js =>
    simp only [Net.act, Net.attach] at h
    split at h <;> exact .inl h
  | stop x =>
    simp only [Net.act, Net.stop] at h
    split at h
    · rename_i hc
      rcases hfold _ _ h with h | h
      · exact .inl h
      · refine .inr (.inl ⟨x, h, ?_⟩)
        simp only [Bool.and_eq_true, Bool.not_eq_true'] at hc
        by_contra hne
        obtain ⟨y, hy⟩ := Option.ne_none_iff_exists'.mp hne
        obtain ⟨b, hb, hw⟩ := waiting_of_waitingOn hy
        have := hc.2
        simp [hb, hw] at this
    · exact .inl h
  | turn x order =>
    simp only [Net.act, Net.turn] at h
    split at h
    · split at h <;> exact .inl h
    · rename_i c hj
      rcases hans _ _ _ h with h | rfl
      · exact .inl h
      · exact .inr (.inl ⟨x, by simp [Peer.callers, hj], by simp [Peer.waitingOn, hj]⟩)
    · rcases hsend _ _ _ h with h | ⟨h, -⟩
      · exact .inl h
      · cases h
    · exact .inl h

/-- Where the calls with the number `id` wait. -/
theorem state_callers {S : Fin n → Prop} {id : Nat} (hcalls : ∀ k i, acts k = .call i id → S i) (k : Nat) (x : Fin n)
    (h : .outside id ∈ ((state acts k).peer x).callers) : S x := by
  induction k with
  | zero => simp [state, Peer.callers] at h
  | succ k ih =>
    rcases Net.act_callers _ _ x h with h | h
    · exact ih h
    · exact hcalls k x h

theorem never_answered {S : Fin n → Prop} {id k : Nat}
    (hcycle : ∀ i, S i → ∃ j, S j ∧ ((state acts k).peer i).waitingOn = some j)
    (hcalls : ∀ k i, acts k = .call i id → S i) (hnot : ∀ ok, (id, ok) ∉ (state acts k).answers) (m : Nat) (hm : k ≤ m) :
    (∀ i, S i → ∃ j, S j ∧ ((state acts m).peer i).waitingOn = some j) ∧ ∀ ok, (id, ok) ∉ (state acts m).answers := by
  induction m, hm using Nat.le_induction with
  | base => exact ⟨hcycle, hnot⟩
  | succ m hkm ih =>
    obtain ⟨hc, hn⟩ := ih
    constructor
    · intro i hi
      obtain ⟨j, hj, hij⟩ := hc i hi
      obtain ⟨y, -, hjy⟩ := hc j hj
      refine ⟨j, hj, ?_⟩
      have := (sound acts m).blocked hij hjy (acts m)
      unfold Peer.waitingOn at hij ⊢
      rw [state, this]
      exact hij
    · intro ok ha
      rcases Net.act_answered _ _ ha with ha | ⟨x, hx, hw⟩ | ⟨x, hx, hd⟩
      · exact hn ok ha
      · obtain ⟨j, -, hj⟩ := hc x (state_callers hcalls m x hx)
        rw [hw] at hj; cases hj
      · obtain ⟨j, -, hj⟩ := hc x (hcalls m x hx)
        obtain ⟨b, hb, -⟩ := waiting_of_waitingOn hj
        have := ((sound acts m x).dead x hd).2
        rw [hb] at this; cases this

/-- As long as no thread ends, all answers are snapshots. -/
theorem all_ok (hstop : ∀ k i, acts k ≠ .stop i) (k : Nat) :
    (∀ i, ((state acts k).peer i).alive = true) ∧ ∀ a ∈ (state acts k).answers, a.2 = true := by
  induction k with
  | zero => exact ⟨fun _ => rfl, by intro a ha; cases ha⟩
  | succ k ih =>
    obtain ⟨hal, hok⟩ := ih
    have hset : ∀ {i p}, p.alive = true → ∀ x, (((state acts k).set i p).peer x).alive = true := by
      intro i p hp x
      rw [Net.set_peer]
      split
      · exact hp
      · exact hal x
    have hsend : ∀ (net' : Net n) j m, (∀ x, (net'.peer x).alive = true) → net'.answers = (state acts k).answers →
        (∀ x, ((net'.send j m).peer x).alive = true) ∧ ∀ a ∈ (net'.send j m).answers, a.2 = true := by
      intro net' j m hl ha
      unfold Net.send
      rw [if_pos (hl j)]
      constructor
      · intro x
        rw [Net.set_peer]
        split
        · exact hl j
        · exact hl x
      · rw [Net.set_answers, ha]; exact hok
    rw [state]
    cases hact : acts k with
    | stop i => exact absurd hact (hstop k i)
    | call i id => exact hsend _ i _ hal rfl
    | mount i js => exact hsend _ i _ hal rfl
    | attach i js =>
      simp only [Net.act, Net.attach]
      split
      · exact ⟨hset (hal i), hok⟩
      · exact ⟨hal, hok⟩
    | turn i order =>
      simp only [Net.act, Net.turn]
      split
      · split
        · exact ⟨hal, hok⟩
        · exact ⟨hset (hal i), hok⟩
        · exact ⟨hset (hal i), hok⟩
      · rename_i c hj
        constructor
        · intro x
          rw [Net.answer_peer]
          split
          · rw [Peer.resume_alive]; exact hset (p := { (state acts k).peer i with job := none }) (hal i) x
          · exact hset (p := { (state acts k).peer i with job := none }) (hal i) x
        · cases c with
          | outside id =>
            intro a ha
            simp only [Net.answer, Net.set_answers, List.mem_append, List.mem_singleton] at ha
            rcases ha with ha | rfl
            · exact hok a ha
            · rfl
          | driver j => exact hok
      · rename_i c x todo hj
        exact hsend ((state acts k).set i _) x _ (hset (hal i)) rfl
      · exact ⟨hal, hok⟩

end Metrix.Fleet
