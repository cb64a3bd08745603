import Verif.Proof.Busy

/-! What runs of processors, mounts and drivers report at most. -/

namespace Metrix
variable {σ L : Type} {b : Nat}

theorem Outcome.AtMost.mono {o : Outcome} {m n : Nat} (h : o.AtMost m) (hn : m ≤ n) : o.AtMost n :=
  ⟨Nat.le_trans h.1 hn, Nat.le_trans h.2.1 hn, Nat.le_trans h.2.2.1 hn, Nat.le_trans h.2.2.2 hn⟩

theorem Outcome.AtMost.add {o o' : Outcome} {m n : Nat} (h : o.AtMost m) (h' : o'.AtMost n) : (o.combineWith o').AtMost (m + n) :=
  ⟨Nat.add_le_add h.1 h'.1, Nat.add_le_add h.2.1 h'.2.1, Nat.add_le_add h.2.2.1 h'.2.2.1, Nat.add_le_add h.2.2.2 h'.2.2.2⟩

theorem Outcome.AtMost.zero (n : Nat) : ({} : Outcome).AtMost n := ⟨Nat.zero_le _, Nat.zero_le _, Nat.zero_le _, Nat.zero_le _⟩

theorem sum_map_subperm {A : Type} {as bs : List A} (h : as.Subperm bs) (f : A → Nat) : (as.map f).sum ≤ (bs.map f).sum := by
  obtain ⟨cs, hp, hs⟩ := h
  rw [← (hp.map f).sum_eq]
  clear hp
  induction hs with
  | slnil => exact Nat.le_refl _
  | cons a _ ih => simp only [List.map_cons, List.sum_cons]; omega
  | cons_cons a _ ih => simp only [List.map_cons, List.sum_cons]; omega

/-- With other messages, or fewer of them, and no more instruments. -/
theorem Processor.most_mono {p p' : Processor σ L} (h1 : p'.receiver.chan.pending.length ≤ p.receiver.chan.pending.length)
    (h2 : p'.size ≤ p.size) : p'.most b ≤ p.most b :=
  Nat.mul_le_mul h1 (Nat.add_le_add_left (Nat.mul_le_mul_left _ h2) _)

theorem Processor.size_receiver {p p' : Processor σ L} (h1 : p'.state.parts.length ≤ p.state.parts.length)
    (h2 : p'.receiver.chan.pending.Subperm p.receiver.chan.pending) : p'.size ≤ p.size :=
  Nat.add_le_add h1 (sum_map_subperm h2 _)

section
variable [DecidableEq L] [Custom σ L] (hb : 1 ≤ b) (hc : CustomModest σ L b)
include hb hc

/-- The loop of a run consumes `n` messages. -/
theorem Processor.busy_receiveLoop (dec : Decider) (max : Nat) (p : Processor σ L) (t : Tally) :
    (p.receiveLoop dec max t).Post fun r => ∃ n, r.1.receiver.chan.pending.length + n ≤ p.receiver.chan.pending.length ∧
      r.1.size ≤ p.size ∧ r.2.processed + r.2.dropped ≤ t.processed + t.dropped + n ∧ r.2.updated ≤ t.updated + n * (b * p.size) := by
  induction max generalizing p t with
  | zero => exact .pure ⟨0, Nat.le_refl _, Nat.le_refl _, Nat.le_refl _, by simp⟩
  | succ max ih =>
    unfold Processor.receiveLoop
    rcases hr : p.receiver.tryRecv with ⟨r, x⟩
    obtain ⟨h1, h2⟩ := Receiver.subperm_tryRecv hr
    cases x with
    | ok m =>
      have hsub := h2 m rfl
      have hlen := hsub.length_le
      have hsum := sum_map_subperm hsub fun m => m.parts.length
      simp only [List.length_cons, List.map_cons, List.sum_cons] at hlen hsum
      refine .bind _ (ProcessorState.reports hb hc dec p.state t m) fun s hs => (ih _ _).mono fun a ⟨n, g1, g2, g3, g4⟩ => ?_
      have hsize : ({ p with state := s.1, receiver := r } : Processor σ L).size ≤ p.size := by
        simp only [Processor.size]; omega
      refine ⟨n + 1, ?_, ?_, ?_, ?_⟩
      · simp only at g1; omega
      · omega
      · omega
      · have e1 : n * (b * ({ p with state := s.1, receiver := r } : Processor σ L).size) ≤ n * (b * p.size) :=
          Nat.mul_le_mul_left _ (Nat.mul_le_mul_left _ hsize)
        have e2 : b * p.state.parts.length ≤ b * p.size := Nat.mul_le_mul_left _ (Nat.le_add_right _ _)
        rw [Nat.add_mul, Nat.one_mul]
        omega
    | empty =>
      refine (ih _ _).mono fun a ⟨n, g1, g2, g3, g4⟩ => ?_
      have hsize : ({ p with receiver := r } : Processor σ L).size ≤ p.size := Processor.size_receiver (Nat.le_refl _) h1
      exact ⟨n, Nat.le_trans g1 h1.length_le, Nat.le_trans g2 hsize, g3,
        Nat.le_trans g4 (Nat.add_le_add_left (Nat.mul_le_mul_left _ (Nat.mul_le_mul_left _ hsize)) _)⟩
    | disconnected =>
      exact .pure ⟨0, by simpa using h1.length_le, Processor.size_receiver (Nat.le_refl _) h1, Nat.le_refl _, by simp⟩

/-- A run reports no more than it can. Afterwards no more can be reported than before. -/
theorem Processor.busy_process (max : Nat) (st : Strategy) (p : Processor σ L) :
    (p.process max st).Post fun r => r.2.AtMost (p.most b) ∧ r.1.most b ≤ p.most b := by
  refine .ite (.pure ⟨.zero _, Nat.le_refl _⟩) (.bindAny fun dec => .bind _ (p.busy_receiveLoop hb hc dec max {}) fun r ⟨n, h1, h2, h3, h4⟩ => ?_)
  have hq : r.1.receiver.len.2 ≤ r.1.receiver.chan.pending.length := by
    have := r.1.receiver.subperm_wait.length_le
    simp only [Channel.pending, List.length_append, List.length_map] at this
    show r.1.receiver.wait.chan.queue.length ≤ _
    simp only [Channel.pending, List.length_append, List.length_map]
    omega
  have hmost : ∀ a, ({ r.1 with receiver := r.1.receiver.len.1, state := { r.1.state with activity := a } } : Processor σ L).most b ≤
      p.most b := fun a =>
    Processor.most_mono (Nat.le_trans r.1.receiver.subperm_wait.length_le (by omega))
      (Nat.le_trans (Processor.size_receiver (p := r.1) (Nat.le_refl _) r.1.receiver.subperm_wait) h2)
  have hlen : p.receiver.chan.pending.length ≤ p.most b := by
    unfold Processor.most
    exact Nat.le_mul_of_pos_right _ (by omega)
  have hout : (Outcome.mk r.2.processed r.2.dropped r.2.updated r.1.receiver.len.2).AtMost (p.most b) := by
    simp only at h3 h4
    refine ⟨?_, ?_, ?_, ?_⟩
    · show r.2.processed ≤ _; omega
    · show r.2.dropped ≤ _; omega
    · have : n * (b * p.size) ≤ p.receiver.chan.pending.length * (1 + b * p.size) :=
        Nat.mul_le_mul (by omega) (Nat.le_add_left _ _)
      show r.2.updated ≤ _
      unfold Processor.most
      omega
    · show r.1.receiver.len.2 ≤ _; omega
  exact .ite (.bindAny fun _ => .pure ⟨hout, hmost _⟩) (.pure ⟨hout, hmost r.1.state.activity⟩)

omit [DecidableEq L] hb hc in
theorem Processor.busy_putSnapshot (p : Processor σ L) (into : Snapshot) (d : Bool) :
    (p.putSnapshot into d).Post fun r => r.1.most b = p.most b := by
  refine .bind _ (ProcessorState.keepsBare_putSnapshot p.state into d) fun r h => .pure ?_
  have := ProcessorState.size_of_bare h
  simp only [Processor.most, Processor.size, this]

end

theorem mostOfNodes_append (ns ms : List (Node σ L)) : mostOfNodes b (ns ++ ms) = mostOfNodes b ns + mostOfNodes b ms := by
  induction ns with
  | nil => simp [mostOfNodes]
  | cons n ns ih => simp only [List.cons_append, mostOfNodes, ih]; omega

section
variable [DecidableEq L] [Custom σ L] [CustomProcessor σ]

mutual
theorem Node.busy_process (hb : 1 ≤ b) (hc : CustomModest σ L b) (hp : CustomProcessorModest σ b) (max : Nat) (st : Strategy) :
    ∀ n : Node σ L, (n.process max st).Post fun r => r.2.AtMost (n.most b) ∧ r.1.most b ≤ n.most b
  | .processor p => by
    rw [Node.process]
    exact .bind _ (p.busy_process hb hc max st) fun _ h => .pure (by simpa only [Node.most] using h)
  | .mount h ns ss => by
    rw [Node.process]
    exact .bind _ (busy_processNodes hb hc hp max st ns) fun _ h => .bindAny fun _ => .pure (by simpa only [Node.most] using h)
  | .attached h ns ss [] => by
    rw [Node.process]
    refine .bind _ (busy_processNodes hb hc hp max st ns) fun _ h => .bindAny fun _ => .pure ?_
    simp only [Node.most, mostOfInbox, Nat.add_zero]
    exact h
  | .attached h ns ss (⟨ps, ss', closed⟩ :: inbox) => by
    rw [Node.process]
    refine .bind _ (busy_processNodes hb hc hp max st ns) fun _ h => .bind _ (busy_processNodes hb hc hp max st ps) fun _ h' =>
      .bindAny fun _ => .pure ⟨?_, ?_⟩
    · simp only [Node.most, mostOfInbox]
      exact (h.1.add h'.1).mono (by omega)
    · have h2 := h.2
      have h2' := h'.2
      have : mostOfInbox b (if closed = true then [] else inbox) ≤ mostOfInbox b inbox := by
        split
        · simp [mostOfInbox]
        · exact Nat.le_refl _
      simp only [Node.most, mostOfInbox, mostOfNodes_append]
      omega
  | .driver as => by
    rw [Node.process]
    exact .pure ⟨.zero _, by simp [Node.most]⟩
  | .custom s => by
    rw [Node.process]
    exact .bind _ (fun e k r k' h => hp s max st e k r k' h) fun _ h => .pure (by simpa only [Node.most, Nat.le_refl, and_true] using h)

theorem busy_processNodes (hb : 1 ≤ b) (hc : CustomModest σ L b) (hp : CustomProcessorModest σ b) (max : Nat) (st : Strategy) :
    ∀ ns : List (Node σ L), (processNodes max st ns).Post fun r => r.2.AtMost (mostOfNodes b ns) ∧ mostOfNodes b r.1 ≤ mostOfNodes b ns
  | [] => by
    rw [processNodes]
    exact .pure ⟨.zero _, Nat.le_refl _⟩
  | n :: ns => by
    rw [processNodes]
    refine .bind _ (n.busy_process hb hc hp max st) fun _ h => .bind _ (busy_processNodes hb hc hp max st ns) fun _ h' => .pure ?_
    simp only [mostOfNodes]
    exact ⟨h.1.add h'.1, Nat.add_le_add h.2 h'.2⟩
end

omit [DecidableEq L] in
mutual
theorem Node.busy_putSnapshot (d : Bool) : ∀ (n : Node σ L) (into : Snapshot), (n.putSnapshot d into).Post fun r => r.1.most b = n.most b
  | .processor p, into => by
    rw [Node.putSnapshot]
    exact .bind _ (p.busy_putSnapshot into d) fun _ h => .pure (by simpa only [Node.most] using h)
  | .mount h ns ss, into => by
    rw [Node.putSnapshot]
    exact .bindAny fun _ => .ite (.bind _ (busy_putNodes d ns _) fun _ h => .bindAny fun _ => .pure (by simpa only [Node.most] using h))
      (.pure rfl)
  | .attached h ns ss inbox, into => by
    rw [Node.putSnapshot]
    exact .bindAny fun _ => .ite (.bind _ (busy_putNodes d ns _) fun _ h => .bindAny fun _ => .pure (by simp only [Node.most, h]))
      (.pure rfl)
  | .driver as, into => by
    rw [Node.putSnapshot]
    exact .pure (by simp [Node.most])
  | .custom s, into => by
    rw [Node.putSnapshot]
    exact .bindAny fun _ => .pure (by simp [Node.most])

theorem busy_putNodes (d : Bool) : ∀ (ns : List (Node σ L)) (into : Snapshot),
    (putNodes d ns into).Post fun r => mostOfNodes b r.1 = mostOfNodes b ns
  | [], into => by
    rw [putNodes]
    exact .pure rfl
  | n :: ns, into => by
    rw [putNodes]
    exact .bind _ (n.busy_putSnapshot d into) fun _ h => .bind _ (busy_putNodes d ns _) fun _ h' =>
      .pure (by simp only [mostOfNodes, h, h'])
end

end
end Metrix
