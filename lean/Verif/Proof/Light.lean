import Verif.Spec.Light
import Verif.Proof.SafeTree
import Verif.Proof.Arith

/-! Instruments within their limits do not panic, in any build. -/

namespace Metrix

namespace Load

theorem ext' {a b : Load} (h1 : a.observations = b.observations) (h2 : a.occurrences = b.occurrences)
    (h3 : a.changes = b.changes) : a = b := by cases a; cases b; simp_all

theorem le_def {a b : Load} :
    a ≤ b ↔ a.observations ≤ b.observations ∧ a.occurrences ≤ b.occurrences ∧ a.changes ≤ b.changes := Iff.rfl

@[simp] theorem add_observations (a b : Load) : (a + b).observations = a.observations + b.observations := rfl
@[simp] theorem add_occurrences (a b : Load) : (a + b).occurrences = a.occurrences + b.occurrences := rfl
@[simp] theorem add_changes (a b : Load) : (a + b).changes = a.changes + b.changes := rfl
@[simp] theorem zero_observations : (0 : Load).observations = 0 := rfl
@[simp] theorem zero_occurrences : (0 : Load).occurrences = 0 := rfl
@[simp] theorem zero_changes : (0 : Load).changes = 0 := rfl

theorem le_refl (a : Load) : a ≤ a := by rw [le_def]; omega

theorem le_trans {a b c : Load} (h1 : a ≤ b) (h2 : b ≤ c) : a ≤ c := by rw [le_def] at *; omega

theorem le_add (a b : Load) : a ≤ a + b := by rw [le_def]; simp

theorem add_le_add {a b c d : Load} (h1 : a ≤ b) (h2 : c ≤ d) : a + c ≤ b + d := by rw [le_def] at *; simp; omega

theorem add_assoc (a b c : Load) : a + b + c = a + (b + c) := by apply ext' <;> simp <;> omega

theorem add_comm (a b : Load) : a + b = b + a := by apply ext' <;> simp <;> omega

theorem add_zero (a : Load) : a + 0 = a := by apply ext' <;> simp

theorem zero_add (a : Load) : 0 + a = a := by apply ext' <;> simp

variable {peak : Nat}

theorem reach_mono {a b : Load} (h : a ≤ b) : a.reach peak ≤ b.reach peak := by
  rw [le_def] at h; unfold reach; omega

theorem sum_mono {a b : Load} (h : a ≤ b) : a.observations * a.reach peak ≤ b.observations * b.reach peak :=
  Nat.mul_le_mul h.1 (reach_mono h)

theorem Small.mono {a b : Load} (hb : b.Small peak) (h : a ≤ b) : a.Small peak :=
  ⟨Nat.lt_of_le_of_lt h.2.1 hb.1, Nat.lt_of_le_of_lt (sum_mono h) hb.2⟩

/-- What was added up, and one more value. -/
theorem sum_succ {a b : Load} {s v : Nat} (h : a ≤ b) (hn : a.observations + 1 ≤ b.observations)
    (hs : s ≤ a.observations * a.reach peak) (hv : v ≤ b.reach peak) : s + v ≤ b.observations * b.reach peak := by
  have h1 : s ≤ a.observations * b.reach peak := Nat.le_trans hs (Nat.mul_le_mul_left _ (reach_mono h))
  have h2 : (a.observations + 1) * b.reach peak ≤ b.observations * b.reach peak := Nat.mul_le_mul_right _ hn
  rw [Nat.succ_mul] at h2
  omega

end Load

theorem I64_of_natAbs {x : Int} (h : x.natAbs < 2 ^ 63) : I64 x := by unfold I64 i64Min i64Max; omega

theorem U64_of_lt {n : Nat} (h : n < 2 ^ 64) : U64 n := h

namespace M.Tot
variable {e : Env}

theorem arithI64 {x : Int} (h : x.natAbs < 2 ^ 63) : M.Tot e (arithI64 x) (· = x) := fun k =>
  ⟨x, k, arithI64_inRange (I64_of_natAbs h), rfl⟩

theorem arithU64 {x : Nat} (h : x < 2 ^ 64) : M.Tot e (arithU64 x) (· = x) := fun k =>
  ⟨x, k, arithU64_inRange (U64_of_lt h), rfl⟩

theorem and {α : Type} {P Q : α → Prop} {x : M α} (hp : M.Tot e x P) (hq : M.Tot e x Q) : M.Tot e x fun a => P a ∧ Q a := by
  intro k
  obtain ⟨a, k', h, ha⟩ := hp k
  obtain ⟨b, k'', h', hb⟩ := hq k
  rw [h] at h'; cases h'
  exact ⟨a, k', h, ha, hb⟩

end M.Tot

variable {e : Env}

/-! ## Rings -/

theorem sum_map_set {T : Type} (f : T → Nat) (xs : List T) (i : Nat) (x y : T) (h : xs[i]? = some x) :
    ((xs.set i y).map f).sum + f x = (xs.map f).sum + f y := by
  induction xs generalizing i with
  | nil => simp at h
  | cons a as ih =>
    cases i with
    | zero => simp at h; subst h; simp; omega
    | succ i =>
      simp at h
      have := ih i h
      simp only [List.set_cons_succ, List.map_cons, List.sum_cons]; omega

namespace SecondsBuckets
variable {T : Type} [Inhabited T]

omit [Inhabited T] in
theorem iterFrom_down (bs : List T) (n i : Nat) (hi : i < bs.length) (hn : n ≤ i + 1) (m : Nat) :
    iterFrom bs (n + m) i = (do
      let rest ← iterFrom bs m (if n ≤ i then i - n else bs.length - 1)
      return ((bs.take (i + 1)).drop (i + 1 - n)).reverse ++ rest) := by
  induction n generalizing i with
  | zero => simp
  | succ n ih =>
    have e1 : n + 1 + m = (n + m) + 1 := by omega
    rw [e1, iterFrom]
    have hx : index bs i = Pure.pure bs[i] := by unfold index; simp [hi]
    rw [hx]
    simp only [pure_bind]
    by_cases h0 : i = 0
    · subst h0
      have : n = 0 := by omega
      subst this
      simp
      cases bs with
      | nil => simp at hi
      | cons b bs => simp
    · rw [if_neg h0, ih (i - 1) (by omega) (by omega)]
      have e2 : (if n ≤ i - 1 then i - 1 - n else bs.length - 1) = (if n + 1 ≤ i then i - (n + 1) else bs.length - 1) := by
        by_cases h : n ≤ i - 1
        · rw [if_pos h, if_pos (by omega)]; omega
        · rw [if_neg h, if_neg (by omega)]
      rw [e2]
      simp only [bind_assoc, pure_bind]
      congr 1
      funext rest
      congr 1
      have e3 : i - 1 + 1 = i := by omega
      have e4 : i + 1 - (n + 1) = i - n := by omega
      rw [e3, e4, List.take_succ_eq_append_getElem hi, List.drop_append_of_le_length (by simp; omega)]
      simp

omit [Inhabited T] in
/-- The iteration yields each bucket once. -/
theorem iterFrom_perm (bs : List T) (i : Nat) (hi : i < bs.length) :
    ∃ xs, iterFrom bs bs.length i = Pure.pure xs ∧ xs.Perm bs := by
  have h := iterFrom_down bs (i + 1) i hi (Nat.le_refl _) (bs.length - (i + 1))
  have e1 : i + 1 + (bs.length - (i + 1)) = bs.length := by omega
  rw [e1, if_neg (by omega)] at h
  by_cases hl : bs.length - (i + 1) = 0
  · rw [hl] at h
    simp [iterFrom] at h
    refine ⟨_, h, ?_⟩
    rw [List.take_of_length_le (by omega)]
    exact List.reverse_perm _
  · have h2 := iterFrom_down bs (bs.length - (i + 1)) (bs.length - 1) (by omega) (by omega) 0
    simp only [Nat.add_zero, iterFrom, pure_bind, List.append_nil] at h2
    rw [h2] at h
    simp only [pure_bind] at h
    refine ⟨_, h, ?_⟩
    have e2 : bs.length - 1 + 1 = bs.length := by omega
    have e3 : bs.length - 1 + 1 - (bs.length - (i + 1)) = i + 1 := by omega
    rw [e3, e2, Nat.sub_self, List.drop_zero, List.take_length]
    refine ((List.reverse_perm _).append (List.reverse_perm _)).trans ?_
    rw [List.take_append_drop]

theorem tot_advance_keep {P : SecondsBuckets T → Prop} {b : SecondsBuckets T} (h : b.Good)
    (hp : ∀ i x, b.buckets[i]? = some x → P { b with currentIdx := i, buckets := b.buckets.set i default }) :
    M.Tot e b.advance P := by
  refine .bind (h.idx _) fun i hi => ?_
  unfold assignAt
  rw [if_pos hi]
  refine .bind (.pure rfl) fun bs hbs => .pure ?_
  subst hbs
  exact hp i b.buckets[i] (by simp [hi])

end SecondsBuckets

/-! ## Gauges -/

/-- The numbers in the buckets of a gauge are what they can be at most. -/
structure RingWithin (peak : Nat) (l : Load) (r : SecondsBuckets Bucket) : Prop where
  index : r.currentIdx < r.buckets.length
  sums : (r.buckets.map fun b => b.sum.natAbs).sum ≤ l.observations * l.reach peak
  counts : (r.buckets.map fun b => b.count).sum ≤ l.observations
  values : ∀ b ∈ r.buckets, b.min.natAbs ≤ l.reach peak ∧ b.max.natAbs ≤ l.reach peak

variable {peak : Nat} {l l' : Load}

theorem RingWithin.mono {r : SecondsBuckets Bucket} (h : RingWithin peak l r) (hl : l ≤ l') : RingWithin peak l' r :=
  ⟨h.index, Nat.le_trans h.sums (Load.sum_mono hl), Nat.le_trans h.counts hl.1, fun b hb =>
    ⟨Nat.le_trans (h.values b hb).1 (Load.reach_mono hl), Nat.le_trans (h.values b hb).2 (Load.reach_mono hl)⟩⟩

theorem RingWithin.set {r : SecondsBuckets Bucket} (h : RingWithin peak l r) {i : Nat} {x y : Bucket}
    (hx : r.buckets[i]? = some x) (hs : y.sum.natAbs ≤ x.sum.natAbs) (hc : y.count ≤ x.count)
    (hm : y.min.natAbs ≤ l.reach peak) (hM : y.max.natAbs ≤ l.reach peak) (t : Int) (j : Nat) (hj : j < r.buckets.length) :
    RingWithin peak l { buckets := r.buckets.set i y, currentTime := t, currentIdx := j } := by
  have h1 := sum_map_set (fun b : Bucket => b.sum.natAbs) r.buckets i x y hx
  have h2 := sum_map_set (fun b : Bucket => b.count) r.buckets i x y hx
  have h3 := h.sums
  have h4 := h.counts
  refine ⟨by simpa using hj, ?_, ?_, ?_⟩
  · show (List.map (fun b : Bucket => b.sum.natAbs) (r.buckets.set i y)).sum ≤ _
    omega
  · show (List.map (fun b : Bucket => b.count) (r.buckets.set i y)).sum ≤ _
    omega
  · intro b hb
    rcases List.mem_or_eq_of_mem_set hb with hb | rfl
    · exact h.values b hb
    · exact ⟨hm, hM⟩

theorem RingWithin.advance {r : SecondsBuckets Bucket} (h : RingWithin peak l r) :
    M.Tot e r.advance fun r' => RingWithin peak l r' ∧ r'.buckets.length = r.buckets.length := by
  refine SecondsBuckets.tot_advance_keep h.index fun i x hx => ?_
  exact ⟨h.set hx (Nat.zero_le _) (Nat.zero_le _) (Nat.zero_le _) (Nat.zero_le _) _ _
    (by simpa using (List.getElem?_eq_some_iff.mp hx).1), by simp⟩

theorem RingWithin.advanceN (n : Nat) {r : SecondsBuckets Bucket} (h : RingWithin peak l r) :
    M.Tot e (r.advanceN n) (RingWithin peak l) := by
  induction n generalizing r with
  | zero => exact .pure h
  | succ n ih => exact .bind h.advance fun b hb => ih hb.1

theorem RingWithin.tick {r : SecondsBuckets Bucket} (h : RingWithin peak l r) : M.Tot e r.tick (RingWithin peak l) := by
  refine .okBind .now fun now => .ite (fun _ => .pure h) fun _ => ?_
  have h' : ∀ t, RingWithin peak l { r with currentTime := t } := fun t => ⟨h.index, h.sums, h.counts, h.values⟩
  refine .ite (fun _ => (h' _).advance.mono fun _ h => h.1) fun _ => .ite (fun _ => (h' _).advanceN _) fun _ => .pure ?_
  refine ⟨?_, ?_, ?_, ?_⟩
  · have := h.index
    simp only [List.length_map]; omega
  · simp only [List.map_map]
    have : ((fun b : Bucket => b.sum.natAbs) ∘ fun _ : Bucket => (default : Bucket)) = fun _ => 0 := rfl
    rw [this]; simp
  · simp only [List.map_map]
    have : ((fun b : Bucket => b.count) ∘ fun _ : Bucket => (default : Bucket)) = fun _ => 0 := rfl
    rw [this]; simp
  · intro b hb
    simp only [List.mem_map] at hb
    obtain ⟨_, _, rfl⟩ := hb
    exact ⟨Nat.zero_le _, Nat.zero_le _⟩

theorem le_sum_of_getElem? {T : Type} (f : T → Nat) {xs : List T} {i : Nat} {x : T} (h : xs[i]? = some x) :
    f x ≤ (xs.map f).sum := by
  induction xs generalizing i with
  | nil => simp at h
  | cons a as ih =>
    cases i with
    | zero => simp at h; subst h; simp
    | succ i => simp at h; have := ih h; simp; omega

theorem Bucket.tot_update {b : Bucket} {v : Int} {n : Nat} (hs : b.sum.natAbs + v.natAbs < 2 ^ 63) (hc : b.count + 1 < 2 ^ 64)
    (hm : b.min.natAbs ≤ n) (hM : b.max.natAbs ≤ n) (hv : v.natAbs ≤ n) :
    M.Tot e (b.update v) fun y => y.sum.natAbs ≤ b.sum.natAbs + v.natAbs ∧ y.count ≤ b.count + 1 ∧
      y.min.natAbs ≤ n ∧ y.max.natAbs ≤ n := by
  unfold Bucket.update
  by_cases hz : b.count ≠ 0
  · rw [if_pos hz]
    refine .bind (.arithI64 (by omega)) fun s hs => .bind (.arithU64 hc) fun c hc => .pure ?_
    subst hs hc
    refine ⟨?_, ?_, ?_, ?_⟩ <;> simp only <;> omega
  · rw [if_neg hz]
    refine .bind (.arithI64 (by omega)) fun s hs => .bind (.arithU64 hc) fun c hc => .pure ?_
    subst hs hc
    refine ⟨?_, ?_, ?_, ?_⟩ <;> simp only <;> omega

theorem RingWithin.record {r : SecondsBuckets Bucket} (h : RingWithin peak l r) (hl : l ≤ l')
    (hn : l.observations + 1 ≤ l'.observations) (hsmall : l'.Small peak) {v : Int} (hv : v.natAbs ≤ l'.reach peak) :
    M.Tot e (r.modifyCurrent fun x => x.update v) (RingWithin peak l') := by
  refine .bind h.tick fun r h => ?_
  have hi := h.index
  have hx : r.buckets[r.currentIdx]? = some r.buckets[r.currentIdx] := by simp
  generalize r.buckets[r.currentIdx] = x at hx
  have hidx : Metrix.index r.buckets r.currentIdx = (Pure.pure x : M Bucket) := by unfold Metrix.index; rw [hx]
  have h1 := le_sum_of_getElem? (fun b : Bucket => b.sum.natAbs) hx
  have h2 := le_sum_of_getElem? (fun b : Bucket => b.count) hx
  have h3 := h.sums
  have h4 := h.counts
  have h5 := Load.sum_succ hl hn h.sums hv
  have h6 := hsmall.2
  have h7 : l'.observations < 2 ^ 63 ∨ l'.reach peak = 0 := by
    by_cases h0 : l'.reach peak = 0
    · exact .inr h0
    · left
      have : l'.observations * 1 ≤ l'.observations * l'.reach peak := Nat.mul_le_mul_left _ (by omega)
      omega
  have h7 : l'.observations < 2 ^ 63 := by
    rcases h7 with h | h
    · exact h
    · unfold Load.reach at h; omega
  rw [hidx]
  refine .bind (P := (· = x)) (.pure rfl) fun x' hx' => ?_
  rw [hx']
  obtain ⟨hm, hM⟩ := h.values x (List.mem_of_getElem? hx)
  have hmono := Load.reach_mono (peak := peak) hl
  refine .bind (Bucket.tot_update (n := l'.reach peak) (by omega) (by omega) (by omega) (by omega) hv) fun y hy => ?_
  · obtain ⟨a1, a2, a3, a4⟩ := hy
    unfold assignAt
    rw [if_pos hi]
    refine .bind (.pure rfl) fun bs hbs => .pure ?_
    subst hbs
    have s1 := sum_map_set (fun b : Bucket => b.sum.natAbs) r.buckets r.currentIdx x y hx
    have s2 := sum_map_set (fun b : Bucket => b.count) r.buckets r.currentIdx x y hx
    refine ⟨by simpa using hi, ?_, ?_, ?_⟩
    · show (List.map (fun b : Bucket => b.sum.natAbs) (r.buckets.set r.currentIdx y)).sum ≤ _
      omega
    · show (List.map (fun b : Bucket => b.count) (r.buckets.set r.currentIdx y)).sum ≤ _
      omega
    · intro b hb
      rcases List.mem_or_eq_of_mem_set hb with hb | rfl
      · exact (h.mono hl).values b hb
      · exact ⟨a3, a4⟩

/-- What instruments within `l` have to do with an update, so that they are within `l'` after it. -/
structure Costs (peak : Nat) (u : Update) (l l' : Load) : Prop where
  le : l ≤ l'
  more : l.observations + 1 ≤ l'.observations
  changed : l.changes + l.observations + u.changing ≤ l'.changes + l'.observations
  atMost : u.AtMost peak
  small : l'.Small peak

theorem Costs.reach {u : Update} (h : Costs peak u l l') : l.reach peak + u.changing ≤ l'.reach peak := by
  have := h.changed
  unfold Load.reach; omega

theorem Costs.reach_lt {u : Update} (h : Costs peak u l l') : l'.reach peak < 2 ^ 63 := by
  have h1 := h.more
  have h2 : 1 * l'.reach peak ≤ l'.observations * l'.reach peak := Nat.mul_le_mul_right _ (by omega)
  have h3 := h.small.2
  omega

theorem Costs.peak_le {u : Update} (_ : Costs peak u l l') : peak ≤ l'.reach peak := by unfold Load.reach; omega

theorem tot_durationToDisplayValue {t n : Nat} {u v : TimeUnit} (h : t * u.nanos ≤ n) (hn : n < 2 ^ 63) :
    M.Tot e (durationToDisplayValue t u v) (· ≤ n) := by
  unfold durationToDisplayValue
  cases u <;> cases v <;> simp only [TimeUnit.nanos] at h <;>
    first
      | exact .pure (by omega)
      | exact (M.Tot.arithU64 (by omega)).mono fun a ha => by omega

theorem Gauge.tot_nextValue {g : Gauge} {v : ObservedValue} {t : Int} (hg : g.Within peak l)
    (hc : Costs peak (.withValue v t) l l') :
    M.Tot e (nextValue g.displayTimeUnit g.value v) fun o => ∀ x, o = some x → x.natAbs ≤ l'.reach peak := by
  have hr := hc.reach
  have hlt := hc.reach_lt
  have hat := hc.atMost
  have hp := hc.peak_le
  have hval := hg.value
  have conv : ∀ w : ObservedValue, w.AtMost peak → (∀ t u, w ≠ .duration t u) →
      M.Tot e (return (w.convertToI64 <|> g.value) : M (Option Int)) fun o => ∀ x, o = some x → x.natAbs ≤ l'.reach peak := by
    intro w hw hd
    refine .pure fun x hx => ?_
    have hw' : ∀ x, w.convertToI64 = some x → x.natAbs ≤ peak := by
      cases w with
      | duration t u => exact absurd rfl (hd t u)
      | _ => exact hw
    cases hcv : w.convertToI64 with
    | some y => rw [hcv] at hx; cases hx; have := hw' _ hcv; omega
    | none => rw [hcv] at hx; have := hval x (by simpa using hx); omega
  unfold nextValue
  cases v with
  | changedBy d =>
    simp only [Update.changing, ObservedValue.changing] at hr
    cases hcv : g.value with
    | none => exact .pure fun x hx => by cases hx; omega
    | some c =>
      have := hval c hcv
      refine .bind (.arithI64 (by omega)) fun y hy => .pure fun x hx => ?_
      cases hx; subst hy; omega
  | duration t' u' =>
    have hd : t' * u'.nanos ≤ peak := hat
    refine .bind (tot_durationToDisplayValue hd (by omega)) fun y hy => .pure fun x hx => ?_
    injection hx with hx
    subst hx
    rw [wrapI64_of_I64 (I64_of_natAbs (by omega))]; omega
  | signedInteger x => exact conv _ hat (by simp)
  | unsignedInteger x => exact conv _ hat (by simp)
  | bool x => exact conv _ hat (by simp)
  | float x => exact conv _ hat (by simp)

theorem Gauge.Within.ring {g : Gauge} (h : g.Within peak l) {r} (hr : g.tracking = some r) : RingWithin peak l r :=
  ⟨h.index r hr, h.sums r hr, h.counts r hr, h.values r hr⟩

theorem Gauge.Within.of {g : Gauge} (hv : ∀ v, g.value = some v → v.natAbs ≤ l.reach peak)
    (hr : ∀ r, g.tracking = some r → RingWithin peak l r) : g.Within peak l :=
  ⟨hv, fun r h => (hr r h).index, fun r h => (hr r h).sums, fun r h => (hr r h).counts, fun r h => (hr r h).values⟩

theorem Gauge.Within.mono {g : Gauge} (h : g.Within peak l) (hl : l ≤ l') : g.Within peak l' :=
  .of (fun v hv => Nat.le_trans (h.value v hv) (Load.reach_mono hl)) fun _ hr => (h.ring hr).mono hl

theorem Gauge.Within.set {g : Gauge} {v : ObservedValue} {t : Int} (h : g.Within peak l)
    (hc : Costs peak (.withValue v t) l l') : M.Tot e (g.set v) (Gauge.Within peak l') := by
  have aux : ∀ c, g.value = c → M.Tot e (do
      match ← nextValue g.displayTimeUnit c v with
      | some next => do
        let t ← track g.tracking next
        return { g with value := some next, tracking := t }
      | none => return { g with value := c } : M Gauge) (Gauge.Within peak l') := by
    intro c hcv
    subst hcv
    refine .bind (tot_nextValue h hc) fun o ho => ?_
    cases o with
    | none => exact .pure (h.mono hc.le)
    | some next =>
      have hn := ho next rfl
      refine .bind (P := fun t => ∀ r, t = some r → RingWithin peak l' r) ?_ fun t ht => .pure (.of (fun v hv => ?_) ht)
      · unfold track
        cases htr : g.tracking with
        | none => exact .pure (fun r hr => nomatch hr)
        | some b =>
          refine .bind ((h.ring htr).record hc.le hc.more hc.small hn) fun b hb => .pure fun r hr => ?_
          cases hr; exact hb
      · cases hv; exact hn
  unfold Gauge.set
  cases hv : g.value with
  | none => exact aux none hv
  | some x => exact aux (some x) hv

theorem Gauge.Within.update {g : Gauge} {u : Update} (h : g.Within peak l) (hc : Costs peak u l l') :
    M.Tot e (g.update u) fun r => r.1.Within peak l' := by
  cases u with
  | withValue v t => exact .bind (h.set hc) fun g hg => .pure hg
  | observation t => exact .pure (h.mono hc.le)
  | observations n t => exact .pure (h.mono hc.le)

/-- What adding up the buckets needs. -/
structure StatsAcc.Within (peak : Nat) (a : StatsAcc) (s n : Nat) : Prop where
  sum : a.totalSum.natAbs ≤ s
  count : a.totalCount ≤ n
  bottom : a.sumBottom.natAbs ≤ n * peak
  top : a.sumPeak.natAbs ≤ n * peak

theorem StatsAcc.tot_addAll {p N : Nat} (hp : N * p < 2 ^ 63) (hN : N < 2 ^ 63) (bs : List Bucket) (a : StatsAcc) (s n : Nat)
    (ha : a.Within p s n) (hb : ∀ b ∈ bs, b.min.natAbs ≤ p ∧ b.max.natAbs ≤ p)
    (hs : s + (bs.map fun b => b.sum.natAbs).sum < 2 ^ 63) (hn : n + (bs.map fun b => b.count).sum ≤ N) :
    M.Ok e (a.addAll bs) := by
  induction bs generalizing a s n with
  | nil => exact .pure _
  | cons b bs ih =>
    simp only [List.map_cons, List.sum_cons] at hs hn
    obtain ⟨h1, h2, h3, h4⟩ := ha
    obtain ⟨h5, h6⟩ := hb b (by simp)
    refine (M.Tot.bind (P := fun a' => a'.Within p (s + b.sum.natAbs) (n + b.count)) ?_ fun a' ha' => ?_).ok
      (P := fun _ => True)
    · unfold StatsAcc.add
      refine .ite (fun h0 => ?_) fun h0 => .pure ?_
      · have hle : (n + b.count) * p ≤ N * p := Nat.mul_le_mul_right _ (by omega)
        have hle' : (n + 1) * p ≤ (n + b.count) * p := Nat.mul_le_mul_right _ (by omega)
        rw [Nat.succ_mul] at hle'
        refine .bind (.arithI64 (by omega)) fun _ e1 => .bind (.arithU64 (by omega)) fun _ e2 =>
          .bind (.arithI64 (by omega)) fun _ e3 => .bind (.arithI64 (by omega)) fun _ e4 => .pure ?_
        subst e1 e2 e3 e4
        refine ⟨?_, ?_, ?_, ?_⟩ <;> simp only <;> omega
      · have hle' : n * p ≤ (n + b.count) * p := Nat.mul_le_mul_right _ (by omega)
        exact ⟨by omega, by omega, by omega, by omega⟩
    · exact .ofOk (ih a' _ _ ha' (fun b hb' => hb b (by simp [hb'])) (by omega) (by omega))

theorem RingWithin.iter {r : SecondsBuckets Bucket} (h : RingWithin peak l r) :
    M.Tot e r.iter fun x => RingWithin peak l x.1 ∧ x.2.Perm x.1.buckets := by
  refine .bind h.tick fun r h => ?_
  obtain ⟨xs, hxs, hp⟩ := SecondsBuckets.iterFrom_perm r.buckets r.currentIdx h.index
  rw [hxs]
  exact .bind (.pure rfl) fun ys hys => .pure (by subst hys; exact ⟨h, hp⟩)

theorem Load.Small.observations {l : Load} (h : l.Small peak) : l.observations < 2 ^ 63 := by
  by_cases h0 : l.reach peak = 0
  · unfold Load.reach at h0; omega
  · have h1 : l.observations * 1 ≤ l.observations * l.reach peak := Nat.mul_le_mul_left _ (by omega)
    have h2 := h.2
    omega

theorem RingWithin.fromBuckets {r : SecondsBuckets Bucket} (h : RingWithin peak l r) (hs : l.Small peak) (v : Int) :
    M.Tot e (BucketsStats.fromBuckets r v) fun x => RingWithin peak l x.1 := by
  refine .bind h.iter fun ⟨r, bs⟩ hb => ?_
  obtain ⟨hr, hp⟩ := hb
  refine .okBind (StatsAcc.tot_addAll (p := l.reach peak) (N := l.observations) hs.2 hs.observations bs {} 0 0
    ⟨by simp, by simp, by simp, by simp⟩ (fun b hb => hr.values b (hp.mem_iff.mp hb)) ?_ ?_) fun a => .ite (fun _ => ?_) fun _ => ?_
  · have := (hp.map fun b : Bucket => b.sum.natAbs).sum_eq
    have h1 := hr.sums
    have h2 := hs.2
    simp only at this h1 ⊢
    omega
  · have := (hp.map fun b : Bucket => b.count).sum_eq
    have h1 := hr.counts
    simp only at this h1 ⊢
    omega
  · refine .okBind (.envBind (.pure _)) fun _ => .okBind (.envBind (.pure _)) fun _ =>
      .okBind (.envBind (.pure _)) fun _ => .pure hr
  · exact .okBind (.envBind (.pure _)) fun _ => .pure hr

theorem Gauge.Within.putValues {g : Gauge} (h : g.Within peak l) (hs : l.Small peak) (into : Snapshot) :
    M.Tot e (g.putValues into) fun r => r.1.Within peak l := by
  unfold Gauge.putValues
  cases hv : g.value with
  | none => exact .pure h
  | some v =>
    simp only
    cases ht : g.tracking with
    | none => exact .pure h
    | some b =>
      refine .bind ((h.ring ht).fromBuckets hs v) fun ⟨b, s⟩ hb => .pure (.of (fun w hw => h.value w (hv.trans hw)) ?_)
      intro r hr; cases hr; exact hb

theorem Gauge.Within.putSnapshot {g : Gauge} (h : g.Within peak l) (hs : l.Small peak) (into : Snapshot) (d : Bool) :
    M.Tot e (g.putSnapshot into d) fun r => r.1.Within peak l := by
  refine .ite (fun _ => .bind (h.putValues hs _) fun r hr => .pure hr) fun _ => h.putValues hs _

/-! ## Meters -/

theorem StdMeter.catchUp_keeps (rnd : Rat → Rat) (now : Int) (s : StdMeter) :
    (s.catchUp rnd now).count = s.count ∧ (s.catchUp rnd now).start = s.start := by
  fun_induction StdMeter.catchUp rnd now s with
  | case1 s h ih => exact ih
  | case2 s h => exact ⟨rfl, rfl⟩

theorem StdMeter.tot_tick (s : StdMeter) : M.Tot e s.tick fun s' => s'.count = s.count ∧ s'.start = s.start := fun _ =>
  ⟨_, _, rfl, StdMeter.catchUp_keeps _ _ _⟩

theorem StdMeter.tot_mark {s : StdMeter} {n : Int} (h : (s.count + n).natAbs < 2 ^ 63) :
    M.Tot e (s.mark n) fun s' => s'.count = s.count + n ∧ s'.start = s.start := by
  refine .bind s.tot_tick fun s' hs => .bind (.arithI64 (by rw [hs.1]; exact h)) fun c hc => .pure ⟨?_, hs.2⟩
  rw [hc, hs.1]

theorem StdMeter.tot_mean {s : StdMeter} (h : s.Recent e) : M.Ok e s.mean := by
  unfold StdMeter.mean
  refine .ite (.pure _) (.envBind ?_)
  intro k
  rw [M.run_bind_some (M.run_now _ _)]
  have := h k
  have hd : sinceNs (e.clock k) s.start < 2 ^ 64 := by unfold sinceNs; omega
  generalize sinceNs (e.clock k) s.start = d at hd
  have h1 : d / nanosPerSec * nanosPerSec < 2 ^ 64 := Nat.lt_of_le_of_lt (Nat.div_mul_le_self _ _) hd
  rw [M.run_bind_some (arithU64_inRange (U64_of_lt h1))]
  have h2 : d / nanosPerSec * nanosPerSec + d % nanosPerSec < 2 ^ 64 := by rw [Nat.mul_comm, Nat.div_add_mod]; exact hd
  rw [M.run_bind_some (arithU64_inRange (U64_of_lt h2))]
  exact M.Ok.ite (.pure _) (.pure _) _

theorem StdMeter.Recent.of_start {s s' : StdMeter} (h : s.Recent e) (hs : s'.start = s.start) : s'.Recent e := by
  unfold StdMeter.Recent at *; rw [hs]; exact h

theorem Meter.tot_tickIfDue (m : Meter) :
    M.Tot e m.tickIfDue fun m' => m'.inner.count = m.inner.count ∧ m'.inner.start = m.inner.start :=
  .okBind .now fun _ => .ite (fun _ => .bind m.inner.tot_tick fun _ h => .okBind .now fun _ => .pure h) fun _ => .pure ⟨rfl, rfl⟩

theorem Meter.tot_putSnapshot {m : Meter} (h : m.inner.Recent e) (s : Snapshot) (d : Bool) :
    M.Tot e (m.putSnapshot s d) fun r => r.1.inner.count = m.inner.count ∧ r.1.inner.start = m.inner.start := by
  refine .bind (P := fun r => r.1.inner.count = m.inner.count ∧ r.1.inner.start = m.inner.start) ?_ fun r hr => .pure hr
  refine .bind m.tot_tickIfDue fun m' hm => ?_
  refine .bind (P := fun r => r.1.count = m.inner.count ∧ r.1.start = m.inner.start) ?_ fun r hr => .pure hr
  refine .okBind (.envBind (.pure _)) fun env => ?_
  refine .bind m'.inner.tot_tick fun s' hs => ?_
  refine .okBind (StdMeter.tot_mean ((h.of_start hm.2).of_start hs.2)) fun _ => .pure ⟨?_, ?_⟩
  · exact hs.1.trans hm.1
  · exact hs.2.trans hm.2

theorem Meter.tot_update {m : Meter} {u : Update} (h : m.inner.count.natAbs ≤ l.occurrences) (hc : Costs peak u l l')
    (h1 : l.occurrences + u.occurrences ≤ l'.occurrences) :
    M.Tot e (m.update u) fun r => r.1.inner.count.natAbs ≤ l'.occurrences ∧ r.1.inner.start = m.inner.start := by
  have h2 := hc.small.1
  refine .bind m.tot_tickIfDue fun m' hm => ?_
  have hcount := hm.1
  have one : ∀ n : Int, n.natAbs ≤ u.occurrences → M.Tot e (do return ({ m' with inner := ← m'.inner.mark n }, 1) : M (Meter × Nat))
      fun r => r.1.inner.count.natAbs ≤ l'.occurrences ∧ r.1.inner.start = m.inner.start := by
    intro n hn
    refine .bind (StdMeter.tot_mark (by omega)) fun s hs => .pure ⟨?_, hs.2.trans hm.2⟩
    show s.count.natAbs ≤ _
    omega
  cases u with
  | withValue v t => exact one 1 (by simp [Update.occurrences])
  | observation t => exact one 1 (by simp [Update.occurrences])
  | observations n t =>
    refine .ite (fun _ => one n (by simp [Update.occurrences])) fun _ => .pure ⟨?_, hm.2⟩
    show m'.inner.count.natAbs ≤ _
    omega

theorem ValueMeter.tot_update {m : ValueMeter} {u : Update}
    (h : m.meter.inner.count.natAbs ≤ l.observations * l.reach peak) (hc : Costs peak u l l') :
    M.Tot e (m.update u) fun r => r.1.meter.inner.count.natAbs ≤ l'.observations * l'.reach peak ∧
      r.1.meter.inner.start = m.meter.inner.start := by
  have hp := hc.peak_le
  have hs := hc.small.2
  have hlt := hc.reach_lt
  have h0 := Load.sum_mono (peak := peak) hc.le
  have mark : ∀ v : Int, v.natAbs ≤ peak → M.Tot e (do return (← m.mark v, 1) : M (ValueMeter × Nat))
      fun r => r.1.meter.inner.count.natAbs ≤ l'.observations * l'.reach peak ∧
        r.1.meter.inner.start = m.meter.inner.start := by
    intro v hv
    have h1 := Load.sum_succ (v := v.natAbs) hc.le hc.more h (by omega)
    refine .bind (.bind (StdMeter.tot_mark (by omega)) fun s hs => .pure (P := fun r : ValueMeter =>
      r.meter.inner.count = m.meter.inner.count + v ∧ r.meter.inner.start = m.meter.inner.start) hs) fun r hr => .pure ⟨?_, hr.2⟩
    show r.meter.inner.count.natAbs ≤ _
    omega
  have conv : ∀ v : ObservedValue, (∀ x, v.convertToI64 = some x → x.natAbs ≤ peak) →
      M.Tot e (match v.convertToI64 with
      | some v => do return (← m.mark v, 1)
      | none => return (m, 0) : M (ValueMeter × Nat))
      fun r => r.1.meter.inner.count.natAbs ≤ l'.observations * l'.reach peak ∧
        r.1.meter.inner.start = m.meter.inner.start := by
    intro v hv
    cases hcv : v.convertToI64 with
    | none => exact .pure ⟨Nat.le_trans h h0, rfl⟩
    | some x => exact mark x (hv x hcv)
  have hat := hc.atMost
  cases u with
  | observation t => exact .pure ⟨Nat.le_trans h h0, rfl⟩
  | observations n t => exact .pure ⟨Nat.le_trans h h0, rfl⟩
  | withValue v t =>
    cases v with
    | duration time u =>
      refine .bind (tot_durationToDisplayValue hat (by omega)) fun y hy => mark _ ?_
      rw [wrapI64_of_I64 (I64_of_natAbs (by omega))]; omega
    | changedBy x => exact conv (.changedBy x) hat
    | signedInteger x => exact conv (.signedInteger x) hat
    | unsignedInteger x => exact conv (.unsignedInteger x) hat
    | bool x => exact conv (.bool x) hat
    | float x => exact conv (.float x) hat

/-! ## Counters and histograms -/

theorem Counter.tot_update {c : Counter} {u : Update} (h : c.count ≤ l.occurrences) (hc : Costs peak u l l')
    (h1 : l.occurrences + u.occurrences ≤ l'.occurrences) :
    M.Tot e (c.update u) fun r => r.1.count ≤ l'.occurrences := by
  have h2 := hc.small.1
  have by' : ∀ n, n ≤ u.occurrences → M.Tot e (do return ({ c with count := ← arithU64 (c.count + n) } : Counter) : M Counter)
      fun r => r.count ≤ l'.occurrences := by
    intro n hn
    refine .bind (.arithU64 (by omega)) fun x hx => .pure ?_
    show x ≤ _
    omega
  cases u with
  | withValue v t => exact .bind (by' 1 (by simp [Update.occurrences])) fun c hc => .pure hc
  | observation t => exact .bind (by' 1 (by simp [Update.occurrences])) fun c hc => .pure hc
  | observations n t => exact .bind (by' n (by simp [Update.occurrences])) fun c hc => .pure hc

theorem Histogram.ok_update_within (h : Histogram) {u : Update} (hc : Costs peak u l l') : M.Ok e (h.update u) := by
  have hp := hc.peak_le
  have hlt := hc.reach_lt
  have reset : M.Ok e h.resetIfDue := by
    unfold Histogram.resetIfDue
    cases h.maxInactivity with
    | none => exact .pure _
    | some d => exact .ite (.bind .now fun _ => .ite (.pure _) (.pure _)) (.pure _)
  have record : ∀ (h : Histogram) v, M.Ok e (h.record v) := fun h v => .bind .now fun _ => .pure _
  refine .bind reset fun h => ?_
  have conv : ∀ v : ObservedValue, M.Ok e (match v.convertToI64 with
      | some v => do return (← h.record v, 1)
      | none => return (h, 0) : M (Histogram × Nat)) := by
    intro v
    cases v.convertToI64 with
    | none => exact .pure _
    | some v => exact .bind (record h v) fun _ => .pure _
  have hat := hc.atMost
  cases u with
  | observation t => exact .pure _
  | observations n t => exact .pure _
  | withValue v t =>
    cases v with
    | duration time u =>
      exact .bind (tot_durationToDisplayValue hat (by omega)).ok fun _ => .bind (record h _) fun _ => .pure _
    | changedBy x => exact conv (.changedBy x)
    | signedInteger x => exact conv (.signedInteger x)
    | unsignedInteger x => exact conv (.unsignedInteger x)
    | bool x => exact conv (.bool x)
    | float x => exact conv (.float x)

end Metrix
