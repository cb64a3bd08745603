import Verif.Model.World
import Verif.Props.C65
import Verif.Props.C75

/-!
# C84 A thread that uses several processors

What each of the processors gets is as if it were the only one. What a thread has sent to one processor before it sent something to
another is there when the other one gets its message. Queues that block do not block each other.
-/

namespace Metrix
variable {μ : Type}

theorem Channel.holdsUp_iff (c : Channel μ) (t : Nat) :
    c.holdsUp t = true ↔ c.Sending t ∧ c.useSend = true ∧ c.isFull = true ∧ c.receiver = true := by
  unfold Channel.holdsUp
  cases hth : c.threads[t]? with
  | none =>
    simp only [Bool.false_eq_true, false_iff]
    rintro ⟨⟨th, h, -⟩, -⟩
    rw [hth] at h; cases h
  | some th =>
    obtain ⟨todo, drops, holds⟩ := th
    cases todo with
    | nil =>
      simp only [Bool.false_eq_true, false_iff]
      rintro ⟨⟨th, h, -, htd⟩, -⟩
      rw [hth] at h; cases h; exact htd rfl
    | cons m rest =>
      cases holds with
      | false =>
        simp only [Bool.false_eq_true, false_iff]
        rintro ⟨⟨th, h, hh, -⟩, -⟩
        rw [hth] at h; cases h; cases hh
      | true =>
        simp only [decide_eq_true_eq]
        rw [(C12_send c t m).1]
        exact ⟨fun h => ⟨⟨_, hth, rfl, by simp⟩, h⟩, fun h => h.2⟩

namespace World

/-- What an event means for channel `i`. -/
def actionsOf (i : Nat) (w : World μ) : WorldEvent → List Action
  | .thread t =>
    match w.visits[t]?, w.chans[i]? with
    | some (j :: _), some c => if j = i ∧ c.holdsUp t = false then [.thread t] else []
    | _, _ => []
  | .receive j => if j = i then [.receive] else []
  | .look _ => []
  | .dropReceiver j => if j = i then [.dropReceiver] else []

/-- What happens to channel `i`, if all of this happens. -/
def actions (i : Nat) : World μ → List WorldEvent → List Action
  | _, [] => []
  | w, ev :: evs => w.actionsOf i ev ++ actions i (w.act ev) evs

theorem run_cons (w : World μ) (ev : WorldEvent) (evs : List WorldEvent) : w.run (ev :: evs) = (w.act ev).run evs := rfl

theorem run_append (w : World μ) (a b : List WorldEvent) : w.run (a ++ b) = (w.run a).run b := by
  simp [run]

theorem actionsOf_spec (i : Nat) (w : World μ) (ev : WorldEvent) :
    (w.act ev).chans[i]? = w.chans[i]?.map (·.acts (w.actionsOf i ev)) := by
  cases hc : w.chans[i]? with
  | none =>
    cases ev with
    | thread t =>
      simp only [act, step]
      split
      · split
        · split
          · exact hc
          · rw [List.getElem?_eq_none_iff] at hc
            simpa using hc
        · exact hc
      · exact hc
    | receive j => simp [act, List.getElem?_modify, hc]
    | look j => exact hc
    | dropReceiver j => simp [act, List.getElem?_modify, hc]
  | some c =>
    cases ev with
    | thread t =>
      simp only [actionsOf, hc]
      cases hv : w.visits[t]? with
      | none => simp only [act, step, hv]; exact hc
      | some vs =>
        cases vs with
        | nil => simp only [act, step, hv]; exact hc
        | cons j rest =>
          simp only []
          by_cases hj : j = i
          · subst hj
            by_cases hh : c.holdsUp t = true
            · rw [if_neg (by simp [hh])]
              simp only [act, step, hv, hc, hh, if_true]; rfl
            · have hh : c.holdsUp t = false := by simpa using hh
              have := (List.getElem?_eq_some_iff.mp hc).1
              rw [if_pos ⟨rfl, hh⟩]
              simp only [act, step, hv, hc, hh, Bool.false_eq_true, if_false, List.getElem?_set_self this]; rfl
          · rw [if_neg (fun h => hj h.1)]
            simp only [act, step, hv]
            split
            · split
              · exact hc
              · simp only [List.getElem?_set_ne hj]; exact hc
            · exact hc
    | receive j =>
      by_cases hj : j = i
      · subst hj; simp [act, actionsOf, hc, Channel.acts, Channel.act]
      · simp [act, actionsOf, hc, hj, Channel.acts]
    | look j => exact hc
    | dropReceiver j =>
      by_cases hj : j = i
      · subst hj; simp [act, actionsOf, hc, Channel.acts, Channel.act]
      · simp [act, actionsOf, hc, hj, Channel.acts]

theorem actions_spec (i : Nat) (w : World μ) (evs : List WorldEvent) :
    (w.run evs).chans[i]? = w.chans[i]?.map (·.acts (w.actions i evs)) := by
  induction evs generalizing w with
  | nil => simp [run, actions, Channel.acts]
  | cons ev evs ih =>
    rw [run_cons, ih, actionsOf_spec, Option.map_map]
    congr 1
    funext c
    exact (Channel.acts_append c _ _).symm

/-- How often `try_recv` is called on receiver `i`. -/
def receivesOf (i : Nat) (evs : List WorldEvent) : Nat := evs.count (.receive i)

end World

/-- How often the receiver tries to take a message. -/
def receivesIn (as : List Action) : Nat := (as.filter fun a => match a with
  | .receive => true
  | _ => false).length

namespace World

theorem actionsOf_receives (i : Nat) (w : World μ) (ev : WorldEvent) :
    receivesIn (w.actionsOf i ev) = if ev = .receive i then 1 else 0 := by
  cases ev with
  | thread t =>
    simp only [actionsOf]
    split
    · split <;> rfl
    · rfl
  | receive j =>
    by_cases hj : j = i
    · subst hj; simp [actionsOf, receivesIn]
    · simp [actionsOf, receivesIn, hj]
  | look j => rfl
  | dropReceiver j => by_cases hj : j = i <;> simp [actionsOf, receivesIn, hj]

theorem actions_receives (i : Nat) (w : World μ) (evs : List WorldEvent) :
    receivesIn (w.actions i evs) = receivesOf i evs := by
  induction evs generalizing w with
  | nil => rfl
  | cons ev evs ih =>
    have h : receivesIn (w.actions i (ev :: evs)) = receivesIn (w.actionsOf i ev) + receivesIn ((w.act ev).actions i evs) := by
      simp [receivesIn, actions]
    rw [h, ih, actionsOf_receives, receivesOf, receivesOf, List.count_cons]
    by_cases he : ev = .receive i <;> simp [he, Nat.add_comm]

theorem actionsOf_drop (i : Nat) (w : World μ) (ev : WorldEvent) (h : ev ≠ .dropReceiver i) : NoDrop (w.actionsOf i ev) := by
  intro a ha
  rintro rfl
  cases ev with
  | thread t =>
    simp only [actionsOf] at ha
    split at ha
    · split at ha
      · simp at ha
      · cases ha
    · cases ha
  | receive j => by_cases hj : j = i <;> simp [actionsOf, hj] at ha
  | look j => cases ha
  | dropReceiver j =>
    by_cases hj : j = i
    · subst hj; exact h rfl
    · simp [actionsOf, hj] at ha

theorem actions_drop (i : Nat) (w : World μ) (evs : List WorldEvent) (h : WorldEvent.dropReceiver i ∉ evs) :
    NoDrop (w.actions i evs) := by
  induction evs generalizing w with
  | nil => intro a ha; cases ha
  | cons ev evs ih =>
    intro a ha
    rcases List.mem_append.mp ha with ha | ha
    · exact actionsOf_drop i w ev (fun he => h (by simp [he])) a ha
    · exact ih _ (fun he => h (by simp [he])) a ha

/-- The channel of a new world with the given number. -/
def channelOf (i : Nat) (cap : Option Nat) (useSend : Bool) (workers : List (Worker μ)) : Channel μ :=
  .fresh cap useSend (workers.map fun w => { todo := callsTo i w.program, drops := w.leaves.contains i })

theorem fresh_chan (channels : List (Option Nat × Bool)) (workers : List (Worker μ)) {i : Nat} {cap : Option Nat} {useSend : Bool}
    (h : channels[i]? = some (cap, useSend)) : (fresh channels workers).chans[i]? = some (channelOf i cap useSend workers) := by
  simp [fresh, h, channelOf, Channel.fresh]

end World

/-- **Each processor gets what it would get if the others did not exist.** Any number of threads use any number of transmitters, each
thread in the order of its program, and everything is interleaved in any way. Then what happens to one of the channels is something
that can happen to a single channel whose threads send those messages of their programs which are for this channel: all that was
proved about single channels and their processors, for all schedules, holds for it. -/
theorem C84_alone (channels : List (Option Nat × Bool)) (workers : List (Worker μ)) (evs : List WorldEvent) {i : Nat}
    {cap : Option Nat} {useSend : Bool} (hi : channels[i]? = some (cap, useSend)) :
    ∃ as, ((World.fresh channels workers).run evs).chans[i]? =
        some ((Channel.fresh cap useSend
          (workers.map fun w => { todo := callsTo i w.program, drops := w.leaves.contains i })).acts as) ∧
      receivesIn as = evs.count (.receive i) ∧ (WorldEvent.dropReceiver i ∉ evs → NoDrop as) := by
  refine ⟨(World.fresh channels workers).actions i evs, ?_, World.actions_receives _ _ _, World.actions_drop _ _ _⟩
  rw [World.actions_spec, World.fresh_chan channels workers hi]; rfl

/-! ## The order of the calls of a thread -/

theorem callsTo_take_succ {program : List (Nat × μ)} {n : Nat} {x : Nat × μ} (h : program[n]? = some x) (i : Nat) :
    callsTo i (program.take (n + 1)) = callsTo i (program.take n) ++ if x.1 = i then [x.2] else [] := by
  rw [List.take_add_one, h]
  by_cases hx : x.1 = i <;> simp [callsTo, hx]

theorem callsTo_take_prefix (i : Nat) (program : List (Nat × μ)) {m n : Nat} (h : m ≤ n) :
    callsTo i (program.take m) <+: callsTo i (program.take n) := by
  have : program.take m <+: program.take n := List.take_prefix_take_left h
  exact (this.filter _).map _

theorem callsTo_take_self (i : Nat) (program : List (Nat × μ)) (n : Nat) : callsTo i (program.take n) <+: callsTo i program := by
  exact ((List.take_prefix n program).filter _).map _

theorem Channel.step_sentBy_other (c : Channel μ) {t u : Nat} (h : u ≠ t) : (c.step t).sentBy u = c.sentBy u := by
  have hs := c.step_spec t
  generalize c.step t = c' at hs
  cases hs with
  | nothing => rfl
  | drop => rfl
  | accept th m rest => simp only [Channel.sentBy]; rw [Channel.sentBy_append]; simp [h, Channel.sentBy]
  | lose th m rest => simp only [Channel.sentBy]; rw [Channel.sentBy_append]; simp [h, Channel.sentBy]

/-- A thread that is not waiting sends its next message. -/
theorem Channel.step_sentBy (c : Channel μ) {t : Nat} (hheld : c.Held) (h : c.holdsUp t = false) :
    (c.step t).sentBy t = c.sentBy t ++ (c.todo t).take 1 := by
  have hp := c.program_act (.thread t) t
  simp only [Channel.act] at hp
  by_cases htd : c.todo t = []
  · rw [htd] at hp ⊢
    have hs := c.step_spec t
    generalize c.step t = c' at hs hp
    cases hs with
    | nothing => simp
    | drop => simp [Channel.sentBy]
    | accept th m rest hth hh htd' => simp [Channel.todo, hth, htd'] at htd
    | lose th m rest hth hh htd' => simp [Channel.todo, hth, htd'] at htd
  · have hsend := hheld t htd
    have h1 := C75_step c t hsend
    rw [if_neg fun hc => by rw [(c.holdsUp_iff t).mpr ⟨hsend, hc⟩] at h; cases h] at h1
    rw [h1] at hp
    cases hm : c.todo t with
    | nil => exact absurd hm htd
    | cons m rest =>
      rw [hm] at hp
      simp only [List.tail_cons] at hp
      have : (c.step t).sentBy t ++ rest = (c.sentBy t ++ [m]) ++ rest := by rw [hp]; simp
      simpa using List.append_cancel_right this

namespace World

/-- Thread `t` has completed the first `n` steps of its program. -/
structure Reached (w : World μ) (t : Nat) (x : Worker μ) (n : Nat) : Prop where
  visits : w.visits[t]? = some ((x.program.map (·.1) ++ x.leaves).drop n)
  sent : ∀ {i : Nat} {c : Channel μ}, w.chans[i]? = some c → c.sentBy t = callsTo i (x.program.take n)
  all : ∀ {i : Nat} {c : Channel μ}, w.chans[i]? = some c → c.sentBy t ++ c.todo t = callsTo i x.program
  held : ∀ {i : Nat} {c : Channel μ}, w.chans[i]? = some c → c.Held

theorem Reached.fresh (channels : List (Option Nat × Bool)) {workers : List (Worker μ)} {t : Nat} {x : Worker μ}
    (h : workers[t]? = some x) : (World.fresh channels workers).Reached t x 0 := by
  have hchan : ∀ {i : Nat} {c : Channel μ}, (World.fresh channels workers).chans[i]? = some c →
      ∃ cap useSend, c = channelOf i cap useSend workers := by
    intro i c hc
    cases hi : channels[i]? with
    | none => simp [World.fresh, hi] at hc
    | some y =>
      rw [fresh_chan channels workers (cap := y.1) (useSend := y.2) hi] at hc
      cases hc; exact ⟨_, _, rfl⟩
  refine ⟨by simp [World.fresh, h], fun hc => ?_, fun hc => ?_, fun hc => ?_⟩
  · obtain ⟨_, _, rfl⟩ := hchan hc; rfl
  · obtain ⟨_, _, rfl⟩ := hchan hc
    simp [channelOf, Channel.fresh, Channel.sentBy, Channel.todo, h]
  · obtain ⟨_, _, rfl⟩ := hchan hc
    intro u hu
    simp only [channelOf, Channel.fresh, Channel.todo, Channel.Sending] at hu ⊢
    split at hu
    · rename_i th hth
      refine ⟨th, hth, ?_, hu⟩
      obtain ⟨y, -, rfl⟩ := List.mem_map.mp (List.mem_of_getElem? hth)
      rfl
    · exact absurd rfl hu

theorem Reached.act {w : World μ} {t : Nat} {x : Worker μ} {n : Nat} (h : w.Reached t x n) (ev : WorldEvent) :
    ∃ n', n ≤ n' ∧ (w.act ev).Reached t x n' := by
  cases ev with
  | look => exact ⟨n, Nat.le_refl _, h⟩
  | receive j =>
    have key : ∀ {i : Nat} {c : Channel μ}, (w.act (.receive j)).chans[i]? = some c →
        ∃ c₀, w.chans[i]? = some c₀ ∧ (c = c₀ ∨ c = c₀.take) := by
      intro i c hc
      simp only [World.act, List.getElem?_modify] at hc
      obtain ⟨c₀, h1, h2⟩ := Option.map_eq_some_iff.mp hc
      refine ⟨c₀, h1, ?_⟩
      split at h2
      · exact .inr h2.symm
      · exact .inl h2.symm
    have same : ∀ c₀ : Channel μ, c₀.take.sentBy t = c₀.sentBy t ∧ c₀.take.todo t = c₀.todo t := by
      intro c₀; simp only [Channel.take]; split <;> exact ⟨rfl, rfl⟩
    refine ⟨n, Nat.le_refl _, h.visits, fun hc => ?_, fun hc => ?_, fun hc => ?_⟩
    · obtain ⟨c₀, h0, rfl | rfl⟩ := key hc
      · exact h.sent h0
      · rw [(same c₀).1]; exact h.sent h0
    · obtain ⟨c₀, h0, rfl | rfl⟩ := key hc
      · exact h.all h0
      · rw [(same c₀).1, (same c₀).2]; exact h.all h0
    · obtain ⟨c₀, h0, rfl | rfl⟩ := key hc
      · exact h.held h0
      · exact Channel.held_act (h.held h0) .receive
  | dropReceiver j =>
    have key : ∀ {i : Nat} {c : Channel μ}, (w.act (.dropReceiver j)).chans[i]? = some c →
        ∃ c₀, w.chans[i]? = some c₀ ∧ (c = c₀ ∨ c = c₀.dropReceiver) := by
      intro i c hc
      simp only [World.act, List.getElem?_modify] at hc
      obtain ⟨c₀, h1, h2⟩ := Option.map_eq_some_iff.mp hc
      refine ⟨c₀, h1, ?_⟩
      split at h2
      · exact .inr h2.symm
      · exact .inl h2.symm
    refine ⟨n, Nat.le_refl _, h.visits, fun hc => ?_, fun hc => ?_, fun hc => ?_⟩
    · obtain ⟨c₀, h0, rfl | rfl⟩ := key hc
      · exact h.sent h0
      · show c₀.sentBy t = _
        exact h.sent h0
    · obtain ⟨c₀, h0, rfl | rfl⟩ := key hc
      · exact h.all h0
      · show c₀.sentBy t ++ c₀.todo t = _
        exact h.all h0
    · obtain ⟨c₀, h0, rfl | rfl⟩ := key hc
      · exact h.held h0
      · exact Channel.held_act (h.held h0) .dropReceiver
  | thread u =>
    cases hv : w.visits[u]? with
    | none => rw [show w.act (.thread u) = w by simp only [World.act, step, hv]]; exact ⟨n, Nat.le_refl _, h⟩
    | some vs =>
    cases vs with
    | nil => rw [show w.act (.thread u) = w by simp only [World.act, step, hv]]; exact ⟨n, Nat.le_refl _, h⟩
    | cons j rest =>
    have hu := (List.getElem?_eq_some_iff.mp hv).1
    by_cases hut : u = t
    · subst hut
      have hdrop : (x.program.map (·.1) ++ x.leaves).drop n = j :: rest := by
        have := h.visits.symm.trans hv; simpa using this
      have hrest : (x.program.map (·.1) ++ x.leaves).drop (n + 1) = rest := by
        rw [← List.drop_drop, hdrop]; rfl
      have hj : (x.program.map (·.1) ++ x.leaves)[n]? = some j := by
        rw [← List.head?_drop, hdrop]; rfl
      -- the next call is for channel `j`, or the program is over
      have hnext : ∀ i, i ≠ j → callsTo i (x.program.take (n + 1)) = callsTo i (x.program.take n) := by
        intro i hij
        cases hx : x.program[n]? with
        | none =>
          have := List.getElem?_eq_none_iff.mp hx
          rw [List.take_of_length_le this, List.take_of_length_le (by omega)]
        | some y =>
          have hlt := (List.getElem?_eq_some_iff.mp hx).1
          rw [List.getElem?_append_left (by simpa using hlt), List.getElem?_map, hx] at hj
          have hy : y.1 = j := by simpa using hj
          rw [callsTo_take_succ hx, if_neg (by rw [hy]; exact Ne.symm hij), List.append_nil]
      have hnextj : ∀ {c : Channel μ}, w.chans[j]? = some c →
          callsTo j (x.program.take (n + 1)) = c.sentBy u ++ (c.todo u).take 1 := by
        intro c hc
        have h1 := h.sent hc
        have h2 := h.all hc
        cases hx : x.program[n]? with
        | none =>
          have := List.getElem?_eq_none_iff.mp hx
          rw [List.take_of_length_le this] at h1
          have htd : c.todo u = [] := by
            rw [h1] at h2
            exact List.append_right_eq_self.mp h2
          rw [List.take_of_length_le (by omega), h1, htd]; simp
        | some y =>
          have hlt := (List.getElem?_eq_some_iff.mp hx).1
          rw [List.getElem?_append_left (by simpa using hlt), List.getElem?_map, hx] at hj
          have hy : y.1 = j := by simpa using hj
          rw [callsTo_take_succ hx, if_pos hy, h1]
          have hp : callsTo j (x.program.take n) ++ [y.2] <+: callsTo j x.program := by
            have := callsTo_take_self j x.program (n + 1)
            rw [callsTo_take_succ hx, if_pos hy] at this; exact this
          obtain ⟨r, hr⟩ := hp
          rw [← h2, h1, List.append_assoc] at hr
          rw [← List.append_cancel_left hr]; rfl
      cases hc : w.chans[j]? with
      | none =>
        have hw : w.act (.thread u) = { w with visits := w.visits.set u rest } := by simp only [World.act, step, hv, hc]
        rw [hw]
        refine ⟨n + 1, by omega, ?_, fun {i c} hi => ?_, fun hi => h.all hi, fun hi => h.held hi⟩
        · simp only [List.getElem?_set_self hu, hrest]
        · rw [hnext i (by rintro rfl; rw [hc] at hi; cases hi)]
          exact h.sent hi
      | some c =>
        by_cases hh : c.holdsUp u = true
        · rw [show w.act (.thread u) = w by simp only [World.act, step, hv, hc, hh, if_true]]
          exact ⟨n, Nat.le_refl _, h⟩
        · have hh : c.holdsUp u = false := by simpa using hh
          have hw : w.act (.thread u) = { chans := w.chans.set j (c.step u), visits := w.visits.set u rest } := by
            simp only [World.act, step, hv, hc, hh, Bool.false_eq_true, if_false]
          have hlt := (List.getElem?_eq_some_iff.mp hc).1
          rw [hw]
          refine ⟨n + 1, by omega, ?_, fun {i c'} hi => ?_, fun {i c'} hi => ?_, fun {i c'} hi => ?_⟩
          · simp only [List.getElem?_set_self hu, hrest]
          all_goals
            by_cases hij : j = i
            · subst hij
              simp only [List.getElem?_set_self hlt, Option.some.injEq] at hi
              subst hi
              first
                | (rw [hnextj hc]; exact c.step_sentBy (h.held hc) hh)
                | exact (c.program_act (.thread u) u).trans (h.all hc)
                | exact Channel.held_step (h.held hc) u
            · simp only [List.getElem?_set_ne hij] at hi
              first
                | (rw [hnext i (Ne.symm hij)]; exact h.sent hi)
                | exact h.all hi
                | exact h.held hi
    · have hvis : (w.visits.set u rest)[t]? = w.visits[t]? := List.getElem?_set_ne hut
      cases hc : w.chans[j]? with
      | none =>
        have hw : w.act (.thread u) = { w with visits := w.visits.set u rest } := by simp only [World.act, step, hv, hc]
        rw [hw]
        exact ⟨n, Nat.le_refl _, hvis.trans h.visits, fun hi => h.sent hi, fun hi => h.all hi, fun hi => h.held hi⟩
      | some c =>
        by_cases hh : c.holdsUp u = true
        · rw [show w.act (.thread u) = w by simp only [World.act, step, hv, hc, hh, if_true]]
          exact ⟨n, Nat.le_refl _, h⟩
        · have hh : c.holdsUp u = false := by simpa using hh
          have hw : w.act (.thread u) = { chans := w.chans.set j (c.step u), visits := w.visits.set u rest } := by
            simp only [World.act, step, hv, hc, hh, Bool.false_eq_true, if_false]
          have hlt := (List.getElem?_eq_some_iff.mp hc).1
          rw [hw]
          refine ⟨n, Nat.le_refl _, hvis.trans h.visits, fun {i c'} hi => ?_, fun {i c'} hi => ?_, fun {i c'} hi => ?_⟩
          all_goals
            by_cases hij : j = i
            · subst hij
              simp only [List.getElem?_set_self hlt, Option.some.injEq] at hi
              subst hi
              first
                | (rw [c.step_sentBy_other (Ne.symm hut)]; exact h.sent hc)
                | exact (c.program_act (.thread u) t).trans (h.all hc)
                | exact Channel.held_step (h.held hc) u
            · simp only [List.getElem?_set_ne hij] at hi
              first
                | exact h.sent hi
                | exact h.all hi
                | exact h.held hi

theorem Reached.run {w : World μ} {t : Nat} {x : Worker μ} {n : Nat} (h : w.Reached t x n) (evs : List WorldEvent) :
    ∃ n', n ≤ n' ∧ (w.run evs).Reached t x n' := by
  induction evs generalizing w n with
  | nil => exact ⟨n, Nat.le_refl _, h⟩
  | cons ev evs ih =>
    obtain ⟨n₁, h1, hr⟩ := h.act ev
    obtain ⟨n₂, h2, hr⟩ := ih hr
    exact ⟨n₂, by omega, hr⟩

end World

/-- **The calls of a thread are completed in their order, across all channels.** At any moment there is a number such that the thread
has sent to each channel exactly those of its first so many messages that are for the channel. -/
theorem C84_order (channels : List (Option Nat × Bool)) {workers : List (Worker μ)} (evs : List WorldEvent) {t : Nat} {x : Worker μ}
    (ht : workers[t]? = some x) :
    ∃ n, ∀ i c, ((World.fresh channels workers).run evs).chans[i]? = some c → c.sentBy t = callsTo i (x.program.take n) := by
  obtain ⟨n, -, h⟩ := (World.Reached.fresh channels ht).run evs
  exact ⟨n, fun i c hc => h.sent hc⟩

theorem World.prefix_run (channels : List (Option Nat × Bool)) (workers : List (Worker μ)) (evs : List WorldEvent) {i : Nat}
    {c : Channel μ} (hc : ((World.fresh channels workers).run evs).chans[i]? = some c) :
    ∃ cap useSend, channels[i]? = some (cap, useSend) ∧ c.cap = cap ∧ c.useSend = useSend ∧ c.Prefix ∧ c.Bounded ∧
      (useSend = true ∨ cap = none → c.receiver = true → c.Lossless) := by
  cases hi : channels[i]? with
  | none =>
    rw [World.actions_spec] at hc
    simp [World.fresh, hi] at hc
  | some y =>
    obtain ⟨cap, useSend⟩ := y
    obtain ⟨as, has, -⟩ := C84_alone channels workers evs hi
    rw [hc] at has
    cases has
    refine ⟨cap, useSend, rfl, by rw [Channel.acts_cap]; rfl, by rw [Channel.acts_useSend]; rfl, ?_, ?_, ?_⟩
    · refine Channel.acts_induction (P := Channel.Prefix) Channel.prefix_act _ as ⟨fun _ => rfl, fun h => by cases h⟩
    · refine Channel.acts_induction (P := Channel.Bounded) Channel.bounded_act _ as (fun n _ => Nat.zero_le n)
    · intro h hr
      exact C12_lossless cap useSend _ as h hr

/-- **What was sent before is there.** A processor has got message `m` from thread `t`. This is one of the messages in the program of
the thread, and to all channels the thread has sent everything that comes earlier in its program. -/
theorem C84_before (channels : List (Option Nat × Bool)) {workers : List (Worker μ)} (evs : List WorldEvent) {t : Nat} {x : Worker μ}
    (ht : workers[t]? = some x) {b : Nat} {cb : Channel μ} (hb : ((World.fresh channels workers).run evs).chans[b]? = some cb) {m : μ}
    (hm : (t, m) ∈ cb.taken) :
    ∃ j, x.program[j]? = some (b, m) ∧
      ∀ i c, ((World.fresh channels workers).run evs).chans[i]? = some c → callsTo i (x.program.take (j + 1)) <+: c.sentBy t := by
  obtain ⟨n, -, h⟩ := (World.Reached.fresh channels ht).run evs
  obtain ⟨_, _, -, -, -, hpre, -⟩ := World.prefix_run channels workers evs hb
  have hacc : (t, m) ∈ cb.accepted := by
    cases hr : cb.receiver with
    | true =>
      have := hpre.1 hr
      unfold Channel.Kept at this
      rw [← this]; exact List.mem_append_left _ hm
    | false => exact (hpre.2 hr).2.subset hm
  have hsent : m ∈ cb.sentBy t := by
    refine (cb.accepted_sublist t).subset ?_
    simp only [byThread, List.mem_map, List.mem_filter]
    exact ⟨(t, m), ⟨hacc, by simp⟩, rfl⟩
  rw [h.sent hb] at hsent
  simp only [callsTo, List.mem_map, List.mem_filter] at hsent
  obtain ⟨⟨b', m'⟩, ⟨hmem, hb'⟩, rfl⟩ := hsent
  obtain rfl : b' = b := by simpa using hb'
  obtain ⟨j, hj, hjm⟩ := List.mem_iff_getElem.mp hmem
  have hjn : j < n := by simp at hj; omega
  refine ⟨j, ?_, fun i c hc => ?_⟩
  · rw [List.getElem_take] at hjm
    exact List.getElem?_eq_some_iff.mpr ⟨by simp at hj; omega, hjm⟩
  · rw [h.sent hc]; exact callsTo_take_prefix i x.program hjn

theorem Channel.acts_takes (c : Channel μ) (as : List Action) (hno : NoDrop as) :
    c.taken ++ c.queue.take (receivesIn as) <+: (c.acts as).taken := by
  induction as generalizing c with
  | nil => simp [receivesIn, Channel.acts]
  | cons a as ih =>
    have h := ih (c.act a) fun a ha => hno a (List.mem_cons_of_mem _ ha)
    refine List.IsPrefix.trans ?_ h
    cases a with
    | thread t =>
      simp only [Channel.act]
      rw [Channel.step_taken, show receivesIn (.thread t :: as) = receivesIn as from rfl]
      have hs := c.step_spec t
      generalize c.step t = c' at hs
      refine (List.prefix_append_right_inj _).mpr ?_
      cases hs with
      | accept =>
        simp only
        rw [List.take_append]
        exact List.prefix_append _ _
      | _ => exact List.prefix_refl _
    | receive =>
      rw [show receivesIn (.receive :: as) = receivesIn as + 1 from rfl]
      simp only [Channel.act, Channel.take]
      cases hq : c.queue with
      | nil => simp [hq]
      | cons y q => simp
    | dropReceiver => exact absurd rfl (hno _ (by simp))

/-- **If the other processor is asked afterwards, it catches up.** First some processor gets message `m` of thread `t`, which is one of
its program. If the receiver of another channel, where nothing is lost, is then asked as often as it has messages in its queue, or
more often, it has got all that the thread sent to it before `m`, in the order of the program. -/
theorem C84_caught_up (channels : List (Option Nat × Bool)) {workers : List (Worker μ)} (first : List WorldEvent) {t : Nat}
    {x : Worker μ} (ht : workers[t]? = some x) {b : Nat} {cb : Channel μ}
    (hb : ((World.fresh channels workers).run first).chans[b]? = some cb) {m : μ} (hm : (t, m) ∈ cb.taken) :
    ∃ j, x.program[j]? = some (b, m) ∧
      ∀ i cap useSend c, channels[i]? = some (cap, useSend) → (useSend = true ∨ cap = none) →
        ((World.fresh channels workers).run first).chans[i]? = some c → c.receiver = true →
        ∀ later, WorldEvent.dropReceiver i ∉ later → c.queue.length ≤ later.count (.receive i) →
          ∃ c', ((World.fresh channels workers).run (first ++ later)).chans[i]? = some c' ∧
            callsTo i (x.program.take (j + 1)) <+: byThread t c'.taken := by
  obtain ⟨j, hj, hall⟩ := C84_before channels first ht hb hm
  refine ⟨j, hj, fun i cap useSend c hi hless hc hr later hno hn => ?_⟩
  obtain ⟨_, _, hi', -, -, hpre, -, hlos⟩ := World.prefix_run channels workers first hc
  rw [hi] at hi'
  cases hi'
  have hkept := hpre.1 hr
  refine ⟨c.acts (((World.fresh channels workers).run first).actions i later), ?_, ?_⟩
  · rw [World.run_append, World.actions_spec, hc]; rfl
  · refine (hall i c hc).trans ?_
    rw [← c.accepted_eq_sentBy (hlos hless hr), ← hkept]
    have := c.acts_takes _ (World.actions_drop i ((World.fresh channels workers).run first) later hno)
    rw [World.actions_receives, World.receivesOf, List.take_of_length_le hn] at this
    exact (this.filter _).map _

/-! ## The schedule of a receiver -/

/-- A call on the receiver of a processor. -/
inductive ReceiverOp
  | tryRecv
  | len
  deriving DecidableEq

def Receiver.perform (r : Receiver μ) : ReceiverOp → Receiver μ
  | .tryRecv => r.tryRecv.1
  | .len => r.len.1

namespace World

/-- The calls on receiver `i`. -/
def opsOn (i : Nat) : List WorldEvent → List ReceiverOp
  | [] => []
  | .receive j :: evs => if j = i then .tryRecv :: opsOn i evs else opsOn i evs
  | .look j :: evs => if j = i then .len :: opsOn i evs else opsOn i evs
  | _ :: evs => opsOn i evs

/-- Which threads use channel `i` before each of the calls on its receiver, and after the last of them. `now` are those since the call
before. -/
def aheadOf (i : Nat) (w : World μ) (now : List Nat) : List WorldEvent → List (List Nat)
  | [] => [now]
  | .thread t :: evs =>
    aheadOf i (w.act (.thread t)) (now ++ (w.actionsOf i (.thread t)).map fun _ => t) evs
  | .receive j :: evs =>
    if j = i then now :: aheadOf i (w.act (.receive j)) [] evs else aheadOf i (w.act (.receive j)) now evs
  | .look j :: evs => if j = i then now :: aheadOf i w [] evs else aheadOf i w now evs
  | .dropReceiver j :: evs => aheadOf i (w.act (.dropReceiver j)) now evs

theorem aheadOf_spec (i : Nat) (evs : List WorldEvent) (hno : WorldEvent.dropReceiver i ∉ evs) :
    ∀ (w : World μ) (c₀ c : Channel μ) (now : List Nat), c₀.run now = c → w.chans[i]? = some c →
      (w.run evs).chans[i]? =
        some ((opsOn i evs).foldl Receiver.perform { chan := c₀, ahead := w.aheadOf i now evs }).wait.chan := by
  induction evs with
  | nil =>
    intro w c₀ c now hrun hc
    simp only [run, List.foldl_nil, aheadOf, opsOn, Receiver.wait, hrun]
    exact hc
  | cons ev evs ih =>
    have hno' : WorldEvent.dropReceiver i ∉ evs := fun h => hno (List.mem_cons_of_mem _ h)
    intro w c₀ c now hrun hc
    rw [run_cons]
    have hact := actionsOf_spec i w ev
    rw [hc, Option.map_some] at hact
    cases ev with
    | thread t =>
      refine ih hno' _ c₀ _ _ ?_ hact
      simp only [actionsOf, hc]
      split
      · split
        · simp only [List.map_cons, List.map_nil]
          rw [Channel.run, List.foldl_append]
          show Channel.step (c₀.run now) t = _
          rw [hrun]; rfl
        · simpa [Channel.acts] using hrun
      · simpa [Channel.acts] using hrun
    | receive j =>
      by_cases hj : j = i
      · subst hj
        simp only [opsOn, aheadOf, if_true, List.foldl_cons]
        have hop : Receiver.perform { chan := c₀, ahead := now :: aheadOf j (w.act (.receive j)) [] evs } .tryRecv =
            { chan := c.take, ahead := aheadOf j (w.act (.receive j)) [] evs } := by
          simp only [Receiver.perform, Receiver.tryRecv, Receiver.wait, hrun]
          split
          · rfl
          · rename_i hq
            simp only [Channel.take, hq]
        rw [hop]
        refine ih hno' _ c.take c.take [] rfl ?_
        rw [hact]; simp [actionsOf, Channel.acts, Channel.act]
      · simp only [opsOn, aheadOf, hj, if_false]
        refine ih hno' _ c₀ c now hrun ?_
        rw [hact]; simp [actionsOf, hj, Channel.acts]
    | look j =>
      by_cases hj : j = i
      · subst hj
        simp only [opsOn, aheadOf, if_true, List.foldl_cons]
        have hop : Receiver.perform { chan := c₀, ahead := now :: aheadOf j w [] evs } .len =
            { chan := c, ahead := aheadOf j w [] evs } := by
          simp only [Receiver.perform, Receiver.len, Receiver.wait, hrun]
        rw [hop]
        exact ih hno' _ c c [] rfl hc
      · simp only [opsOn, aheadOf, hj, if_false]
        exact ih hno' _ c₀ c now hrun hc
    | dropReceiver j =>
      have hj : j ≠ i := by rintro rfl; exact hno (by simp)
      refine ih hno' _ c₀ c now hrun ?_
      rw [hact]; simp [actionsOf, hj, Channel.acts]

end World

/-- **The model of a single receiver is the right one.** However everything is interleaved: there is a schedule of the threads (the
field `ahead` of `Receiver`, over which the theorems about processors quantify) such that a receiver with this schedule, after the
same calls, has its channel in the state in which it really is. -/
theorem C84_schedule (channels : List (Option Nat × Bool)) (workers : List (Worker μ)) (evs : List WorldEvent) {i : Nat}
    {cap : Option Nat} {useSend : Bool} (hi : channels[i]? = some (cap, useSend)) (hno : WorldEvent.dropReceiver i ∉ evs) :
    ∃ ahead, ((World.fresh channels workers).run evs).chans[i]? = some
      ((World.opsOn i evs).foldl Receiver.perform
        { chan := .fresh cap useSend (workers.map fun w => { todo := callsTo i w.program, drops := w.leaves.contains i }),
          ahead }).wait.chan :=
  ⟨(World.fresh channels workers).aheadOf i [] evs,
    World.aheadOf_spec i evs hno _ _ _ [] rfl (World.fresh_chan channels workers hi)⟩

/-! ## Queues that block do not block each other -/

namespace World

/-- How many steps the threads have still to take. -/
def left (w : World μ) : Nat := (w.visits.map List.length).sum

theorem sum_set (l : List (List Nat)) (t : Nat) {j : Nat} {rest : List Nat} (h : l[t]? = some (j :: rest)) :
    ((l.set t rest).map List.length).sum + 1 = (l.map List.length).sum := by
  induction l generalizing t with
  | nil => simp at h
  | cons y l ih =>
    cases t with
    | zero => simp at h; subst h; simp; omega
    | succ t =>
      have := ih t (by simpa using h)
      simp only [List.set_cons_succ, List.map_cons, List.sum_cons]; omega

theorem left_act (w : World μ) (ev : WorldEvent) :
    (w.act ev).left < w.left ∨ ((w.act ev).visits = w.visits ∧ ∀ t, ev = .thread t → w.act ev = w) := by
  cases ev with
  | thread t =>
    simp only [act, step]
    split
    · rename_i i rest hv
      have := sum_set w.visits t hv
      split
      · split
        · exact .inr ⟨rfl, fun _ _ => rfl⟩
        · exact .inl (by simp only [left]; omega)
      · exact .inl (by simp only [left]; omega)
    · exact .inr ⟨rfl, fun _ _ => rfl⟩
  | receive i => exact .inr ⟨rfl, fun _ h => by cases h⟩
  | look i => exact .inr ⟨rfl, fun _ h => by cases h⟩
  | dropReceiver i => exact .inr ⟨rfl, fun _ h => by cases h⟩

theorem left_act_le (w : World μ) (ev : WorldEvent) : (w.act ev).left ≤ w.left := by
  rcases left_act w ev with h | ⟨h, -⟩
  · omega
  · simp only [left, h]; omega

theorem left_run_le (w : World μ) (evs : List WorldEvent) : (w.run evs).left ≤ w.left := by
  induction evs generalizing w with
  | nil => exact Nat.le_refl _
  | cons ev evs ih => exact (ih _).trans (left_act_le w ev)

/-- As long as no thread makes progress, the queues only get shorter. -/
theorem still (w : World μ) (evs : List WorldEvent) (h : (w.run evs).left = w.left) :
    (w.run evs).visits = w.visits ∧ ∀ i c, w.chans[i]? = some c → ∃ c', (w.run evs).chans[i]? = some c' ∧ c'.cap = c.cap ∧
      c'.useSend = c.useSend ∧ c'.queue.length ≤ c.queue.length - evs.count (.receive i) := by
  induction evs generalizing w with
  | nil => exact ⟨rfl, fun i c hc => ⟨c, hc, rfl, rfl, by simp⟩⟩
  | cons ev evs ih =>
    rw [run_cons] at h ⊢
    have h1 := left_act_le w ev
    have h2 := left_run_le (w.act ev) evs
    rcases left_act w ev with hlt | ⟨hv, hth⟩
    · omega
    · obtain ⟨hv', hc'⟩ := ih (w.act ev) (by omega)
      refine ⟨hv'.trans hv, fun i c hc => ?_⟩
      have hstep : ∃ c₁, (w.act ev).chans[i]? = some c₁ ∧ c₁.cap = c.cap ∧ c₁.useSend = c.useSend ∧
          c₁.queue.length ≤ c.queue.length - if ev = .receive i then 1 else 0 := by
        cases ev with
        | thread t => rw [hth t rfl]; exact ⟨c, hc, rfl, rfl, by simp⟩
        | receive j =>
          by_cases hj : j = i
          · subst hj
            refine ⟨c.take, by simp [act, hc], ?_, ?_, ?_⟩
            · simp only [Channel.take]; split <;> rfl
            · simp only [Channel.take]; split <;> rfl
            · simp only [Channel.take]
              split
              · rename_i hq; simp [hq]
              · rename_i hq; simp [hq]
          · exact ⟨c, by simp [act, hc, hj], rfl, rfl, by simp [hj]⟩
        | look j => exact ⟨c, hc, rfl, rfl, by simp⟩
        | dropReceiver j =>
          by_cases hj : j = i
          · subst hj
            exact ⟨c.dropReceiver, by simp [act, hc], rfl, rfl, by simp [Channel.dropReceiver]⟩
          · exact ⟨c, by simp [act, hc, hj], rfl, rfl, by simp⟩
      obtain ⟨c₁, h1, hcap, huse, hlen⟩ := hstep
      obtain ⟨c', h2, hcap', huse', hlen'⟩ := hc' i c₁ h1
      refine ⟨c', h2, hcap'.trans hcap, huse'.trans huse, ?_⟩
      rw [List.count_cons]
      by_cases he : ev = .receive i
      · simp only [he, if_true, beq_self_eq_true] at hlen ⊢; omega
      · simp only [he, if_false] at hlen
        have : (ev == WorldEvent.receive i) = false := by simpa using he
        simp only [this, Bool.false_eq_true, if_false]; omega

end World

/-- Each receiver is asked, and afterwards each thread gets the chance to take a step. -/
def WorldRound (channels threads : Nat) (evs : List WorldEvent) : Prop :=
  ∀ i < channels, ∀ t < threads, ∃ a b, evs = a ++ b ∧ WorldEvent.receive i ∈ a ∧ WorldEvent.thread t ∈ b

theorem World.round_progress {w : World μ} (hfree : ∀ (i : Nat) (c : Channel μ), w.chans[i]? = some c → c.Bounded ∧ (c.cap = some 0 → c.useSend = false))
    {evs : List WorldEvent} (hround : WorldRound w.chans.length w.visits.length evs) (hout : ∀ vs ∈ w.visits, ∀ i ∈ vs, i < w.chans.length)
    (h : 0 < w.left) : (w.run evs).left < w.left := by
  rcases Nat.lt_or_ge (w.run evs).left w.left with hlt | hge
  · exact hlt
  exfalso
  have hex : ∃ (t i : Nat) (rest : List Nat), w.visits[t]? = some (i :: rest) := by
    have : ∃ vs ∈ w.visits, vs ≠ [] := by
      by_contra hcon
      push Not at hcon
      have : w.left = 0 := by
        unfold World.left
        rw [List.sum_eq_zero_iff_forall_eq_nat]
        intro n hn
        obtain ⟨vs, hvs, rfl⟩ := List.mem_map.mp hn
        rw [hcon vs hvs]; rfl
      omega
    obtain ⟨vs, hvs, hne⟩ := this
    obtain ⟨t, ht⟩ := List.mem_iff_getElem?.mp hvs
    cases vs with
    | nil => exact absurd rfl hne
    | cons i rest => exact ⟨t, i, rest, ht⟩
  obtain ⟨t, i, rest, hv⟩ := hex
  have hi : i < w.chans.length := hout _ (List.mem_of_getElem? hv) i (by simp)
  obtain ⟨a, b, rfl, ha, hb⟩ := hround i hi t (List.getElem?_eq_some_iff.mp hv).1
  obtain ⟨b₁, b₂, rfl⟩ := List.append_of_mem hb
  rw [World.run_append, World.run_append, World.run_cons] at hge
  have e1 := World.left_run_le w a
  have e2 := World.left_run_le (w.run a) b₁
  have e3 := World.left_act_le ((w.run a).run b₁) (.thread t)
  have e4 := World.left_run_le (((w.run a).run b₁).act (.thread t)) b₂
  have hstill := World.still w (a ++ b₁) (by rw [World.run_append]; omega)
  rw [World.run_append] at hstill
  obtain ⟨c, hc⟩ : ∃ c, w.chans[i]? = some c := ⟨_, List.getElem?_eq_some_iff.mpr ⟨hi, rfl⟩⟩
  obtain ⟨c', hc', hcap, huse, hlen⟩ := hstill.2 i c hc
  have hcount : 1 ≤ (a ++ b₁).count (.receive i) := by
    rw [List.count_append]
    have := List.count_pos_iff.mpr ha
    omega
  have hstuck := World.left_act ((w.run a).run b₁) (.thread t)
  rcases hstuck with hlt | ⟨-, hsame⟩
  · omega
  · have hh : c'.holdsUp t = false := by
      by_contra hcon
      have hcon : c'.holdsUp t = true := by simpa using hcon
      obtain ⟨-, hu, hf, -⟩ := (c'.holdsUp_iff t).mp hcon
      obtain ⟨hbound, hzero⟩ := hfree i c hc
      unfold Channel.isFull at hf
      cases hcc : c'.cap with
      | none => rw [hcc] at hf; cases hf
      | some n =>
        rw [hcc] at hf
        simp only [decide_eq_true_eq] at hf
        have hb := hbound n (by rw [← hcap, hcc])
        cases n with
        | zero =>
          rw [huse, hzero (by rw [← hcap, hcc])] at hu; cases hu
        | succ n => omega
    have hact : ((w.run a).run b₁).act (.thread t) =
        { chans := ((w.run a).run b₁).chans.set i (c'.step t), visits := ((w.run a).run b₁).visits.set t rest } := by
      simp only [World.act, World.step, hstill.1, hv, hc', hh, Bool.false_eq_true, if_false]
    have hsum := World.sum_set ((w.run a).run b₁).visits t (by rw [hstill.1]; exact hv)
    have := congrArg World.left (hsame t rfl)
    rw [hact] at this
    simp only [World.left] at this
    omega

theorem World.run_lengths (w : World μ) (evs : List WorldEvent) :
    (w.run evs).chans.length = w.chans.length ∧ (w.run evs).visits.length = w.visits.length := by
  induction evs generalizing w with
  | nil => exact ⟨rfl, rfl⟩
  | cons ev evs ih =>
    rw [World.run_cons, (ih _).1, (ih _).2]
    cases ev with
    | thread t =>
      simp only [World.act, World.step]
      split
      · split
        · split <;> simp
        · simp
      · simp
    | receive i => simp [World.act]
    | look i => simp [World.act]
    | dropReceiver i => simp [World.act]

/-- **Everybody gets done.** Threads use any number of channels, in any order. No channel that blocks has capacity 0. Each round of what
happens includes that each receiver is asked, and afterwards each thread gets the chance to take a step. After as many rounds as the
threads have calls and transmitters to drop all of them are done, and nobody waits any more: queues that block cannot block each
other. -/
theorem C84_all_done (channels : List (Option Nat × Bool)) (workers : List (Worker μ))
    (hcap : ∀ y ∈ channels, y.1 = some 0 → y.2 = false)
    (hout : ∀ x ∈ workers, (∀ y ∈ x.program, y.1 < channels.length) ∧ ∀ i ∈ x.leaves, i < channels.length)
    (rounds : List (List WorldEvent)) (hround : ∀ evs ∈ rounds, WorldRound channels.length workers.length evs)
    (hn : (workers.map fun x => x.program.length + x.leaves.length).sum ≤ rounds.length) {t : Nat} {x : Worker μ}
    (ht : workers[t]? = some x) :
    ∀ i c, ((World.fresh channels workers).run rounds.flatten).chans[i]? = some c →
      c.sentBy t = callsTo i x.program ∧ c.todo t = [] ∧ c.holdsUp t = false := by
  have hleft : ∀ (rounds : List (List WorldEvent)) (before : List WorldEvent),
      (∀ evs ∈ rounds, WorldRound channels.length workers.length evs) →
      ((World.fresh channels workers).run (before ++ rounds.flatten)).left ≤
        ((World.fresh channels workers).run before).left - rounds.length := by
    intro rounds
    induction rounds with
    | nil => intro before _; simp
    | cons r rounds ih =>
      intro before hall
      have h1 := ih (before ++ r) fun evs h => hall evs (List.mem_cons_of_mem _ h)
      rw [List.append_assoc] at h1
      have hlens := World.run_lengths (World.fresh channels workers) before
      have h2 : 0 < ((World.fresh channels workers).run before).left →
          (((World.fresh channels workers).run before).run r).left < ((World.fresh channels workers).run before).left := by
        refine World.round_progress (fun i c hc => ?_) ?_ ?_
        · obtain ⟨cap, useSend, hi, h1, h2, -, hb, -⟩ := World.prefix_run channels workers before hc
          refine ⟨hb, fun h0 => ?_⟩
          rw [h2]
          exact hcap _ (List.mem_of_getElem? hi) (by rw [← h1]; exact h0)
        · rw [hlens.1, hlens.2]
          simpa [World.fresh] using hall r (by simp)
        · intro vs hvs i hi
          rw [hlens.1]
          obtain ⟨u, hu⟩ := List.mem_iff_getElem?.mp hvs
          have hlt : u < workers.length := by
            have := (List.getElem?_eq_some_iff.mp hu).1
            rw [hlens.2] at this
            simpa [World.fresh] using this
          obtain ⟨n, -, hr⟩ := (World.Reached.fresh channels (List.getElem?_eq_getElem hlt)).run before
          have := hr.visits.symm.trans hu
          cases this
          have hmem := List.mem_of_mem_drop hi
          have hx := hout _ (List.getElem_mem hlt)
          have : i < channels.length := by
            rcases List.mem_append.mp hmem with hm | hm
            · obtain ⟨y, hy, rfl⟩ := List.mem_map.mp hm
              exact hx.1 y hy
            · exact hx.2 i hm
          simpa [World.fresh] using this
      have h3 := World.left_run_le ((World.fresh channels workers).run before) r
      rw [World.run_append _ before r] at h1
      simp only [List.flatten_cons, List.length_cons]
      omega
  have h0 : ((World.fresh channels workers).run rounds.flatten).left = 0 := by
    have h := hleft rounds [] hround
    have hl : ((World.fresh channels workers).run []).left = (workers.map fun x => x.program.length + x.leaves.length).sum := by
      simp [World.run, World.left, World.fresh, Function.comp_def]
    rw [hl, List.nil_append] at h
    omega
  obtain ⟨n, -, hr⟩ := (World.Reached.fresh channels ht).run rounds.flatten
  have hnil : (x.program.map (·.1) ++ x.leaves).drop n = [] := by
    unfold World.left at h0
    rw [List.sum_eq_zero_iff_forall_eq_nat] at h0
    exact List.length_eq_zero_iff.mp (h0 _ (List.mem_map_of_mem (List.mem_of_getElem? hr.visits)))
  have hlen : x.program.length ≤ n := by
    have := List.drop_eq_nil_iff.mp hnil
    simp at this; omega
  intro i c hc
  have h1 := hr.sent hc
  rw [List.take_of_length_le hlen] at h1
  have h2 := hr.all hc
  rw [h1] at h2
  have htd : c.todo t = [] := List.append_right_eq_self.mp h2
  refine ⟨h1, htd, ?_⟩
  by_contra hcon
  obtain ⟨⟨th, hth, -, hne⟩, -⟩ := (c.holdsUp_iff t).mp (by simpa using hcon)
  exact hne (by simpa [Channel.todo, hth] using htd)

/-! ## A snapshot may show the effect without the cause -/

/-- A thread counts the start of something with one processor, and then its end with another one. -/
def startThenEnd : Worker (Message Empty Nat) :=
  { program := [(0, .observation (.observedOne 1 0)), (1, .observation (.observedOne 2 0))] }

def startAndEnd : World (Message Empty Nat) := .fresh [(none, true), (none, true)] [startThenEnd]

/-- A run of a driver with both processors (`src/driver.rs:440`, `src/processor.rs:497-586`): each receiver is asked 1000 times and then
for the length of its queue. The thread gets its turn when the first processor is done. -/
def unluckyRun : List WorldEvent :=
  List.replicate 1000 (.receive 0) ++ [.look 0, .thread 0, .thread 0] ++ List.replicate 1000 (.receive 1) ++ [.look 1]

/-- The processor with the given number, while this happens. -/
def unluckyProcessor (i : Nat) (name counter : String) : Processor Empty Nat where
  state := { name := some name, activity := ⟨0, none, true⟩, handlers := [.instrument ⟨.acceptAll, .counter { name := counter }, none⟩] }
  receiver := { chan := .fresh none true [{ todo := callsTo i startThenEnd.program, drops := false }],
                ahead := startAndEnd.aheadOf i [] unluckyRun }

def unluckyDriver : DriverThread Empty Nat :=
  .running { state := { name := some "d", descr := {}, metrics := none, lastOutcomeLogged := -59300000000, strategy := .processAll }
             receiver :=
              { chan := .fresh none true
                  [{ todo := [.addProcessor (.mount { name := some "m", lastActivity := 0 }
                                [.processor (unluckyProcessor 0 "p" "started"), .processor (unluckyProcessor 1 "q" "ended")] []),
                              .getSnapshot 1 false], drops := false }]
                ahead := [[0], [0]] } }

/-- **Finding.** Snapshots of a driver are no consistent picture of what a thread told several processors. Here a thread counts with
one processor that something has started, and only then with another one that it has ended. The snapshot that follows shows the end,
but not the start. -/
theorem C84_finding_effect_without_cause :
    (answersIn (unluckyDriver.iterations 2 ticking 2).1).map
        (fun a => (uintAt ["d", "m", "p"] "started" a.2, uintAt ["d", "m", "q"] "ended" a.2)) = [(some 0, some 1)] ∧
    ((startAndEnd.run unluckyRun).chans.map fun c => (c.taken.length, c.queue.length)) = [(0, 1), (1, 0)] := by
  decide +kernel

/-! ## Examples -/

/-- The thread is through after its two steps, the second channel has given its message away, the first one not. -/
example : ((startAndEnd.run unluckyRun).chans.map fun c => (c.sentBy 0).length) = [1, 1] ∧
    (startAndEnd.run unluckyRun).visits = [[]] ∧ World.opsOn 0 unluckyRun = List.replicate 1000 .tryRecv ++ [.len] := by
  decide +kernel

/-- Numbers as messages. Two channels with capacity 1 that block. The first thread uses them in one order, the second one in the other. -/
def crosswise : List (Worker Nat) :=
  [{ program := [(0, 1), (0, 2), (1, 3), (1, 4)], leaves := [0] }, { program := [(1, 5), (1, 6), (0, 7), (0, 8)] }]

/-- Both have to wait when they send their second message. -/
example : let w := (World.fresh [(some 1, true), (some 1, true)] crosswise).run [.thread 0, .thread 1, .thread 0, .thread 1]
    w.visits = [[0, 1, 1, 0], [1, 0, 0]] ∧ w.chans.map (fun c => (c.holdsUp 0, c.holdsUp 1)) = [(true, true), (true, true)] := by
  decide

/-- The second channel gets message 3 of the first thread. Everything before it in the program was sent. The last of the messages is
still in the queue of the first channel, and is taken when that receiver is asked next. -/
example : let before : List WorldEvent := [.thread 0, .receive 0, .thread 0, .thread 0, .receive 1]
    let w := (World.fresh [(some 1, true), (some 1, true)] crosswise).run before
    w.chans.map (fun c => (c.taken, c.queue, c.receiver)) = [([(0, 1)], [(0, 2)], true), ([(0, 3)], [], true)] ∧
    ((World.fresh [(some 1, true), (some 1, true)] crosswise).run (before ++ [.receive 0])).chans.map (·.taken) =
      [[(0, 1), (0, 2)], [(0, 3)]] := by
  decide

def fairRound : List WorldEvent := [.receive 0, .receive 1, .thread 0, .thread 1]

example : WorldRound 2 2 fairRound := by
  intro i hi t ht
  refine ⟨[.receive 0, .receive 1], [.thread 0, .thread 1], rfl, ?_, ?_⟩
  · rcases (by omega : i = 0 ∨ i = 1) with rfl | rfl <;> simp
  · rcases (by omega : t = 0 ∨ t = 1) with rfl | rfl <;> simp

example : (∀ y ∈ [(some 1, true), (some 1, true)], y.1 = some 0 → y.2 = false) ∧
    (∀ x ∈ crosswise, (∀ y ∈ x.program, y.1 < 2) ∧ ∀ i ∈ x.leaves, i < 2) ∧
    (crosswise.map fun x => x.program.length + x.leaves.length).sum = 9 := by decide

/-- After nine such rounds, in fact earlier, all is sent. -/
example : ((World.fresh [(some 1, true), (some 1, true)] crosswise).run (List.replicate 9 fairRound).flatten).chans.map
    (fun c => (c.sentBy 0, c.sentBy 1)) = [([1, 2], [7, 8]), ([3, 4], [5, 6])] := by decide

end Metrix
