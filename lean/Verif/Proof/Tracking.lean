import Verif.Proof.Gauge
import Verif.Proof.Ring
import Verif.Spec.Tracking

/-! Tracked gauges: the buckets summarize the recorded values. -/

namespace Metrix

theorem max?_concat (xs : List Int) (v : Int) :
    (xs ++ [v]).max? = some (match xs.max? with | some m => max m v | none => v) := by
  cases xs with
  | nil => rfl
  | cons x xs => simp only [List.cons_append, List.max?_cons', List.foldl_append, List.foldl_cons, List.foldl_nil]

theorem min?_concat (xs : List Int) (v : Int) :
    (xs ++ [v]).min? = some (match xs.min? with | some m => min m v | none => v) := by
  cases xs with
  | nil => rfl
  | cons x xs => simp only [List.cons_append, List.min?_cons', List.foldl_append, List.foldl_cons, List.foldl_nil]

/-- The bucket that holds a list of values. -/
def Bucket.of (vs : List Int) : Bucket where
  sum := wrapI64 vs.sum
  count := vs.length
  min := vs.min?.getD 0
  max := vs.max?.getD 0

theorem Bucket.of_nil : Bucket.of [] = default := rfl

theorem Bucket.update_of {vs : List Int} {v : Int} {b : Bucket} {e : Env} {k k' : Nat}
    (hlen : U64 (vs.length + 1)) (h : (Bucket.of vs).update v e k = some (b, k')) :
    k' = k ∧ b = Bucket.of (vs ++ [v]) := by
  simp only [Bucket.update, M.bind_eq_some, M.run_pure, Option.some.injEq, Prod.mk.injEq] at h
  obtain ⟨s, k₁, hs, c, k₂, hc, rfl, rfl⟩ := h
  obtain ⟨rfl, rfl, -⟩ := arithI64_eq_some hs
  obtain ⟨rfl, rfl, -⟩ := arithU64_eq_some hc
  refine ⟨rfl, ?_⟩
  have hl : (vs.length + 1) % u64Bound = vs.length + 1 := Nat.mod_eq_of_lt hlen
  cases vs with
  | nil => simp [Bucket.of, wrapI64_wrapI64_add, u64Bound]
  | cons x xs =>
    have hmin := min?_concat (x :: xs) v
    have hmax := max?_concat (x :: xs) v
    simp only [List.min?_cons', List.max?_cons'] at hmin hmax
    simp only [Bucket.of, List.length_append, List.sum_append, hmin, hmax, List.min?_cons', List.max?_cons',
      Option.getD_some, wrapI64_wrapI64_add, hl]
    simp

/-- A gauge that tracks `n` seconds since `t0` and recorded `recs`. -/
def Tracked (n : Nat) (t0 : Int) (recs : List Recorded) (s : Nat) (g : Gauge) : Prop :=
  ∃ ring, g.tracking = some ring ∧ Rep n t0 (fun sec => Bucket.of (valuesIn t0 recs sec)) s ring

theorem valuesIn_length (t0 : Int) (recs : List Recorded) (sec : Int) :
    (valuesIn t0 recs sec).length ≤ recs.length := by
  simp only [valuesIn, List.length_map]; exact List.length_filter_le _ _

theorem valuesIn_append (t0 : Int) (r₁ r₂ : List Recorded) (sec : Int) :
    valuesIn t0 (r₁ ++ r₂) sec = valuesIn t0 r₁ sec ++ valuesIn t0 r₂ sec := by
  simp [valuesIn]

/-- What one update records. -/
def recordedBy (clock : Nat → Int) (start : Nat) (u : Update) (after : Option Int) : List Recorded :=
  match u, after with
  | .withValue _ _, some v => [⟨clock start, v⟩]
  | _, _ => []

theorem Tracked.track {n : Nat} {t0 : Int} {recs : List Recorded} {s : Nat} {ring : SecondsBuckets Bucket}
    (r : Rep n t0 (fun sec => Bucket.of (valuesIn t0 recs sec)) s ring) {v : Int} {e : Env} {k k' : Nat}
    {t : Option (SecondsBuckets Bucket)} (hlen : U64 (recs.length + 1))
    (htime : t0 + (s : Int) * (nanosPerSec : Int) ≤ e.clock k)
    (h : Gauge.track (some ring) v e k = some (t, k')) :
    k' = k + 1 ∧ ∃ ring', t = some ring' ∧
      Rep n t0 (fun sec => Bucket.of (valuesIn t0 (recs ++ [⟨e.clock k, v⟩]) sec))
        (tickedTo t0 s (e.clock k)) ring' := by
  simp only [Gauge.track, M.bind_eq_some, M.run_pure, Option.some.injEq, Prod.mk.injEq] at h
  obtain ⟨ring', k₁, h, rfl, rfl⟩ := h
  obtain ⟨y, hy, r'⟩ := (r.modifyCurrent _ e k).2 _ _ h
  have hl := valuesIn_length t0 recs (tickedTo t0 s (e.clock k))
  obtain ⟨rfl, rfl⟩ := Bucket.update_of (by unfold U64 at *; omega) hy
  refine ⟨rfl, ring', rfl, ?_⟩
  have hs := tickedTo_eq htime
  convert r' using 2 with sec
  by_cases hsec : sec = (tickedTo t0 s (e.clock k) : Int)
  · subst hsec
    simp [valuesIn, hs]
  · rw [Function.update_of_ne hsec]
    rw [hs] at hsec
    simp [valuesIn, Ne.symm hsec]

theorem Tracked.update {n : Nat} {t0 : Int} {recs : List Recorded} {s : Nat} {g g' : Gauge}
    (r : Tracked n t0 recs s g) {u : Update} {m : Nat} {e : Env} {k k' : Nat} (hlen : U64 (recs.length + 1))
    (htime : t0 + (s : Int) * (nanosPerSec : Int) ≤ e.clock k) (hg : ∀ c ∈ g.value, I64 c) (hu : u.InRange)
    (h : g.update u e k = some ((g', m), k')) :
    k ≤ k' ∧ ∃ s', Tracked n t0 (recs ++ recordedBy e.clock k u g'.value) s' g' ∧
      (s' = s ∨ s' = tickedTo t0 s (e.clock k) ∧ k < k') := by
  have nothing : ∀ x, g = g' → k = k' → recordedBy e.clock k x g'.value = [] →
      k ≤ k' ∧ ∃ s', Tracked n t0 (recs ++ recordedBy e.clock k x g'.value) s' g' ∧
      (s' = s ∨ s' = tickedTo t0 s (e.clock k) ∧ k < k') := by
    rintro x rfl rfl hx
    exact ⟨le_rfl, s, by rw [hx, List.append_nil]; exact r, .inl rfl⟩
  cases u with
  | observation t =>
    simp [Gauge.update] at h; obtain ⟨⟨rfl, rfl⟩, rfl⟩ := h
    exact nothing _ rfl rfl rfl
  | observations n t =>
    simp [Gauge.update] at h; obtain ⟨⟨rfl, rfl⟩, rfl⟩ := h
    exact nothing _ rfl rfl rfl
  | withValue v t =>
    simp only [Gauge.update, M.bind_eq_some, M.run_pure, Option.some.injEq, Prod.mk.injEq] at h
    obtain ⟨g₁, k₁, h, ⟨rfl, rfl⟩, rfl⟩ := h
    obtain ⟨ring, hring, r⟩ := r
    have key : ∀ (x : Option Int) (_ : g.value = x) (nx : Option Int) (k₂ : Nat),
        Gauge.nextValue g.displayTimeUnit x v e k = some (nx, k₂) →
        (match nx with
          | some next => do
            let t ← Gauge.track g.tracking next
            return { g with value := some next, tracking := t }
          | none => return { g with value := x }) e k₂ = some (g₁, k₁) →
        k ≤ k₁ ∧ ∃ s', Tracked n t0 (recs ++ recordedBy e.clock k (.withValue v t) g₁.value) s' g₁ ∧
          (s' = s ∨ s' = tickedTo t0 s (e.clock k) ∧ k < k₁) := by
      intro x hx nx k₂ hn h
      rw [hx] at hg
      obtain ⟨rfl, -⟩ := Gauge.nextValue_eq_some (t := t) hg hu hn
      cases nx with
      | none =>
        simp at h; obtain ⟨rfl, rfl⟩ := h
        refine ⟨le_rfl, s, ⟨ring, hring, ?_⟩, .inl rfl⟩
        have : x = none := by
          cases x with
          | none => rfl
          | some c =>
            exfalso
            cases v <;> simp only [Gauge.nextValue, M.bind_eq_some, M.run_pure, Option.some.injEq,
              Prod.mk.injEq] at hn
            case changedBy => obtain ⟨_, _, _, hn, _⟩ := hn; cases hn
            case duration => obtain ⟨_, _, _, hn, _⟩ := hn; cases hn
            all_goals
              obtain ⟨hn, _⟩ := hn
              revert hn
              generalize ObservedValue.convertToI64 _ = o
              cases o <;> simp
        subst this
        simpa [recordedBy] using r
      | some next =>
        rw [M.bind_eq_some] at h
        obtain ⟨tr, k₃, htr, h⟩ := h
        simp only [M.run_pure, Option.some.injEq, Prod.mk.injEq] at h
        obtain ⟨rfl, rfl⟩ := h
        rw [hring] at htr
        obtain ⟨rfl, ring', rfl, r'⟩ := Tracked.track r hlen htime htr
        exact ⟨by omega, _, ⟨ring', rfl, r'⟩, .inr ⟨rfl, by omega⟩⟩
    unfold Gauge.set at h
    cases hval : g.value <;> simp only [hval] at h <;> rw [M.bind_eq_some] at h <;>
      obtain ⟨r, k₁, hn, h⟩ := h <;> exact key _ hval r k₁ hn h

/-- What the accumulator of the statistics holds after the seconds `gs`. -/
structure AccOf (gs : List (List Int)) (a : StatsAcc) : Prop where
  peak : a.peak = (maxima gs).foldl max i64Min
  peakMin : a.peakMin = (maxima gs).foldl min i64Max
  bottom : a.bottom = (minima gs).foldl min i64Max
  bottomMax : a.bottomMax = (minima gs).foldl max i64Min
  sumBottom : a.sumBottom = wrapI64 (minima gs).sum
  sumPeak : a.sumPeak = wrapI64 (maxima gs).sum
  totalSum : a.totalSum = wrapI64 gs.flatten.sum
  totalCount : a.totalCount = gs.flatten.length

theorem AccOf.add {gs : List (List Int)} {a a' : StatsAcc} (ha : AccOf gs a) {vs : List Int} {e : Env}
    {k k' : Nat} (hlen : U64 (gs.flatten.length + vs.length)) (h : a.add (Bucket.of vs) e k = some (a', k')) :
    k' = k ∧ AccOf (gs ++ [vs]) a' := by
  unfold StatsAcc.add at h
  cases vs with
  | nil =>
    rw [if_neg (by simp [Bucket.of])] at h
    simp at h; obtain ⟨rfl, rfl⟩ := h
    refine ⟨rfl, ?_⟩
    have hm : maxima (gs ++ [[]]) = maxima gs := by simp [maxima]
    have hm' : minima (gs ++ [[]]) = minima gs := by simp [minima]
    have hf : (gs ++ [[]]).flatten = gs.flatten := by simp
    exact ⟨by rw [hm]; exact ha.peak, by rw [hm]; exact ha.peakMin, by rw [hm']; exact ha.bottom,
      by rw [hm']; exact ha.bottomMax, by rw [hm']; exact ha.sumBottom, by rw [hm]; exact ha.sumPeak,
      by rw [hf]; exact ha.totalSum, by rw [hf]; exact ha.totalCount⟩
  | cons x xs =>
    rw [if_pos (by simp [Bucket.of])] at h
    simp only [M.bind_eq_some, M.run_pure, Option.some.injEq, Prod.mk.injEq] at h
    obtain ⟨ts, k₁, hts, tc, k₂, htc, sb, k₃, hsb, sp, k₄, hsp, rfl, rfl⟩ := h
    obtain ⟨rfl, rfl, -⟩ := arithI64_eq_some hts
    obtain ⟨rfl, rfl, -⟩ := arithU64_eq_some htc
    obtain ⟨rfl, rfl, -⟩ := arithI64_eq_some hsb
    obtain ⟨rfl, rfl, -⟩ := arithI64_eq_some hsp
    refine ⟨rfl, ?_⟩
    have hm : maxima (gs ++ [x :: xs]) = maxima gs ++ [(Bucket.of (x :: xs)).max] := by
      simp [maxima, Bucket.of]
    have hm' : minima (gs ++ [x :: xs]) = minima gs ++ [(Bucket.of (x :: xs)).min] := by
      simp [minima, Bucket.of]
    have hf : (gs ++ [x :: xs]).flatten = gs.flatten ++ x :: xs := by simp
    constructor
    · rw [hm]; simp [ha.peak]
    · rw [hm]; simp [ha.peakMin]
    · rw [hm']; simp [ha.bottom]
    · rw [hm']; simp [ha.bottomMax]
    · rw [hm']; simp [ha.sumBottom, wrapI64_wrapI64_add]
    · rw [hm]; simp [ha.sumPeak, wrapI64_wrapI64_add]
    · rw [hf, List.sum_append]; simp only [ha.totalSum, Bucket.of]
      rw [wrapI64_wrapI64_add, wrapI64_add_wrapI64]
    · rw [hf]; simp only [ha.totalCount, Bucket.of, List.length_append]
      exact Nat.mod_eq_of_lt hlen

theorem AccOf.addAll {gs : List (List Int)} {a a' : StatsAcc} (ha : AccOf gs a) {vss : List (List Int)}
    {e : Env} {k k' : Nat} (hlen : U64 (gs.flatten.length + vss.flatten.length))
    (h : a.addAll (vss.map Bucket.of) e k = some (a', k')) : k' = k ∧ AccOf (gs ++ vss) a' := by
  induction vss generalizing gs a k with
  | nil => simp [StatsAcc.addAll] at h; obtain ⟨rfl, rfl⟩ := h; simpa using ha
  | cons vs vss ih =>
    simp only [List.map_cons, StatsAcc.addAll, M.bind_eq_some] at h
    obtain ⟨a₁, k₁, h₁, h⟩ := h
    simp only [List.flatten_cons, List.length_append] at hlen
    obtain ⟨rfl, ha₁⟩ := ha.add (by unfold U64 at *; omega) h₁
    have hlen' : U64 ((gs ++ [vs]).flatten.length + vss.flatten.length) := by
      simp only [List.flatten_append, List.flatten_singleton, List.length_append]
      unfold U64 at *; omega
    obtain ⟨rfl, ha'⟩ := ih ha₁ hlen' h
    exact ⟨rfl, by simpa using ha'⟩

theorem foldl_max_min (xs : List Int) (h : ∀ x ∈ xs, I64 x) (hne : xs ≠ []) :
    xs.max? = some (xs.foldl max i64Min) ∧ xs.min? = some (xs.foldl min i64Max) := by
  cases xs with
  | nil => exact absurd rfl hne
  | cons x xs =>
    obtain ⟨h1, h2⟩ := h x (by simp)
    rw [List.max?_cons', List.min?_cons', List.foldl_cons, List.foldl_cons, max_eq_right h1, min_eq_right h2]
    exact ⟨rfl, rfl⟩

theorem max?_spec {xs : List Int} {m : Int} : xs.max? = some m ↔ m ∈ xs ∧ ∀ x ∈ xs, x ≤ m :=
  List.max?_eq_some_iff

theorem min?_spec {xs : List Int} {m : Int} : xs.min? = some m ↔ m ∈ xs ∧ ∀ x ∈ xs, m ≤ x :=
  List.min?_eq_some_iff

theorem mem_maxima {gs : List (List Int)} {m : Int} : m ∈ maxima gs ↔ ∃ g ∈ gs, g.max? = some m := by
  simp [maxima]

theorem mem_minima {gs : List (List Int)} {m : Int} : m ∈ minima gs ↔ ∃ g ∈ gs, g.min? = some m := by
  simp [minima]

theorem max?_isSome_of_mem {xs : List Int} {x : Int} (h : x ∈ xs) : ∃ m, xs.max? = some m := by
  cases xs with
  | nil => cases h
  | cons y ys => exact ⟨_, List.max?_cons'⟩

theorem min?_isSome_of_mem {xs : List Int} {x : Int} (h : x ∈ xs) : ∃ m, xs.min? = some m := by
  cases xs with
  | nil => cases h
  | cons y ys => exact ⟨_, List.min?_cons'⟩

theorem flatten_max? {gs : List (List Int)} {m : Int} (h : (maxima gs).max? = some m) :
    gs.flatten.max? = some m := by
  rw [max?_spec] at h ⊢
  obtain ⟨hm, hle⟩ := h
  obtain ⟨g, hg, hgm⟩ := mem_maxima.mp hm
  refine ⟨List.mem_flatten.mpr ⟨g, hg, (max?_spec.mp hgm).1⟩, ?_⟩
  intro x hx
  obtain ⟨g', hg', hx⟩ := List.mem_flatten.mp hx
  obtain ⟨m', hm'⟩ := max?_isSome_of_mem hx
  exact le_trans ((max?_spec.mp hm').2 x hx) (hle m' (mem_maxima.mpr ⟨g', hg', hm'⟩))

theorem flatten_min? {gs : List (List Int)} {m : Int} (h : (minima gs).min? = some m) :
    gs.flatten.min? = some m := by
  rw [min?_spec] at h ⊢
  obtain ⟨hm, hle⟩ := h
  obtain ⟨g, hg, hgm⟩ := mem_minima.mp hm
  refine ⟨List.mem_flatten.mpr ⟨g, hg, (min?_spec.mp hgm).1⟩, ?_⟩
  intro x hx
  obtain ⟨g', hg', hx⟩ := List.mem_flatten.mp hx
  obtain ⟨m', hm'⟩ := min?_isSome_of_mem hx
  exact le_trans (hle m' (mem_minima.mpr ⟨g', hg', hm'⟩)) ((min?_spec.mp hm').2 x hx)

theorem stats_eq_some {n : Nat} {t0 : Int} {recs : List Recorded} {s : Nat} {ring ring' : SecondsBuckets Bucket}
    (r : Rep n t0 (fun sec => Bucket.of (valuesIn t0 recs sec)) s ring) {v : Int} {st : BucketsStats}
    {e : Env} {k k' : Nat} (hI : ∀ x ∈ recs, I64 x.value)
    (hlen : U64 ((windowSeconds n (tickedTo t0 s (e.clock k))).map (valuesIn t0 recs)).flatten.length)
    (h : BucketsStats.fromBuckets ring v e k = some ((ring', st), k')) :
    k' = k + 1 ∧
    Rep n t0 (fun sec => Bucket.of (valuesIn t0 recs sec)) (tickedTo t0 s (e.clock k)) ring' ∧
    IsStats e.rnd v ((windowSeconds n (tickedTo t0 s (e.clock k))).map (valuesIn t0 recs)) st := by
  obtain ⟨b, hb, r'⟩ := r.iter e k
  have hn : ((windowSeconds n (tickedTo t0 s (e.clock k))).map (valuesIn t0 recs)).length = n := by
    simp [windowSeconds]
  generalize hgs : (windowSeconds n (tickedTo t0 s (e.clock k))).map (valuesIn t0 recs) = gs at *
  have hb' : (windowSeconds n (tickedTo t0 s (e.clock k))).map (fun sec => Bucket.of (valuesIn t0 recs sec)) =
      gs.map Bucket.of := by rw [← hgs, List.map_map]; rfl
  have hI' : ∀ x ∈ gs.flatten, I64 x := by
    intro x hx
    obtain ⟨g, hg, hx⟩ := List.mem_flatten.mp hx
    rw [← hgs] at hg
    obtain ⟨sec, _, rfl⟩ := List.mem_map.mp hg
    simp only [valuesIn, List.mem_map, List.mem_filter] at hx
    obtain ⟨y, ⟨hy, _⟩, rfl⟩ := hx
    exact hI y hy
  rw [hb'] at hb
  unfold BucketsStats.fromBuckets at h
  rw [M.run_bind_some hb] at h
  simp only [M.bind_eq_some] at h
  obtain ⟨a, k₁, ha, h⟩ := h
  obtain ⟨rfl, hacc⟩ := AccOf.addAll (gs := []) (a := {}) ⟨rfl, rfl, rfl, rfl, rfl, rfl, rfl, rfl⟩
    (by simpa using hlen) ha
  rw [List.nil_append] at hacc
  have hcount := hacc.totalCount
  by_cases hne : gs.flatten = []
  · rw [if_neg (by simp [hcount, hne])] at h
    simp only [toF64, M.bind_eq_some, M.run_env, M.run_pure, Option.some.injEq, Prod.mk.injEq] at h
    obtain ⟨f, k₂, ⟨en, k₃, ⟨rfl, rfl⟩, rfl, rfl⟩, ⟨rfl, rfl⟩, rfl⟩ := h
    refine ⟨rfl, r', ⟨fun _ => ⟨rfl, rfl, rfl, rfl, rfl, rfl, rfl⟩, ?_, ?_, ?_, ?_, ?_, ?_, ?_⟩⟩ <;>
      exact fun h => absurd hne h
  · rw [if_pos (by rw [hcount]; exact fun h => hne (List.length_eq_zero_iff.mp h))] at h
    simp only [divF64, M.bind_eq_some, M.run_env, M.run_pure, Option.some.injEq, Prod.mk.injEq] at h
    obtain ⟨f₁, k₂, ⟨en, k₃, ⟨rfl, rfl⟩, rfl, rfl⟩, f₂, k₄, ⟨en₂, k₅, ⟨rfl, rfl⟩, rfl, rfl⟩, f₃, k₆,
      ⟨en₃, k₇, ⟨rfl, rfl⟩, rfl, rfl⟩, ⟨rfl, rfl⟩, rfl⟩ := h
    obtain ⟨x, hx⟩ := List.exists_mem_of_ne_nil _ hne
    obtain ⟨g, hg, hxg⟩ := List.mem_flatten.mp hx
    have hmaxne : maxima gs ≠ [] := by
      obtain ⟨m, hm⟩ := max?_isSome_of_mem hxg
      exact List.ne_nil_of_mem (mem_maxima.mpr ⟨g, hg, hm⟩)
    have hminne : minima gs ≠ [] := by
      obtain ⟨m, hm⟩ := min?_isSome_of_mem hxg
      exact List.ne_nil_of_mem (mem_minima.mpr ⟨g, hg, hm⟩)
    have hmaxI : ∀ m ∈ maxima gs, I64 m := fun m hm => by
      obtain ⟨g, hg, hgm⟩ := mem_maxima.mp hm
      exact hI' m (List.mem_flatten.mpr ⟨g, hg, (max?_spec.mp hgm).1⟩)
    have hminI : ∀ m ∈ minima gs, I64 m := fun m hm => by
      obtain ⟨g, hg, hgm⟩ := mem_minima.mp hm
      exact hI' m (List.mem_flatten.mpr ⟨g, hg, (min?_spec.mp hgm).1⟩)
    obtain ⟨h1, h2⟩ := foldl_max_min _ hmaxI hmaxne
    obtain ⟨h3, h4⟩ := foldl_max_min _ hminI hminne
    refine ⟨rfl, r', ⟨fun h => absurd h hne, fun _ => ?_, fun _ => ?_, fun _ => ?_, fun _ => ?_, fun _ => ?_,
      fun _ => ?_, fun _ => ?_⟩⟩
    · simp only [hacc.peak]; exact flatten_max? h1
    · simp only [hacc.bottom]; exact flatten_min? h4
    · simp only [hacc.totalSum, hacc.totalCount, quotient]
    · simp only [hacc.peakMin]; exact h2
    · simp only [hacc.bottomMax]; exact h3
    · simp only [hacc.sumPeak, quotient, r'.length, hn]
    · simp only [hacc.sumBottom, quotient, r'.length, hn]

/-- A snapshot of a tracked gauge. -/
theorem Tracked.putValues {n : Nat} {t0 : Int} {recs : List Recorded} {s : Nat} {g g' : Gauge} {l l' : Snapshot}
    (r : Tracked n t0 recs s g) {e : Env} {k k' : Nat} (hI : ∀ x ∈ recs, I64 x.value)
    (hlen : U64 ((windowSeconds n (tickedTo t0 s (e.clock k))).map (valuesIn t0 recs)).flatten.length)
    (h : g.putValues l e k = some ((g', l'), k')) :
    k ≤ k' ∧ ∃ s', Tracked n t0 recs s' g' ∧ (s' = s ∨ s' = tickedTo t0 s (e.clock k) ∧ k < k') ∧
      ∀ v, g.value = some v → ∃ st,
        IsStats e.rnd v ((windowSeconds n (tickedTo t0 s (e.clock k))).map (valuesIn t0 recs)) st ∧
        l' = l ++ (if g.groupValues then ("current", ItemKind.int v) :: statItems "" st
          else (g.name, ItemKind.int v) :: statItems (g.name ++ "_") st) := by
  obtain ⟨ring, hring, r⟩ := r
  unfold Gauge.putValues at h
  cases hval : g.value <;> simp only [hval, hring] at h
  · simp at h; obtain ⟨⟨rfl, rfl⟩, rfl⟩ := h
    exact ⟨le_rfl, s, ⟨ring, hring, r⟩, .inl rfl, by simp⟩
  · rename_i v
    simp only [M.bind_eq_some, M.run_pure, Option.some.injEq, Prod.mk.injEq] at h
    obtain ⟨⟨ring', st⟩, k₁, h, ⟨rfl, rfl⟩, rfl⟩ := h
    obtain ⟨rfl, r', hst⟩ := stats_eq_some r hI hlen h
    refine ⟨by omega, _, ⟨ring', rfl, r'⟩, .inr ⟨rfl, by omega⟩, ?_⟩
    intro v' hv'
    simp only [Option.some.injEq] at hv'
    subst hv'
    refine ⟨st, hst, ?_⟩
    cases g.groupValues <;> simp [BucketsStats.addToSnapshot, Snapshot.push, statItems]

theorem flatten_window_length (t0 : Int) (n : Nat) (last : Int) (recs : List Recorded) :
    ((windowSeconds n last).map (valuesIn t0 recs)).flatten.length ≤ recs.length := by
  induction recs with
  | nil =>
    have : ∀ secs : List Int, (secs.map (valuesIn t0 [])).flatten = [] := by
      intro secs; simp [valuesIn]
    rw [this]; simp
  | cons r recs ih =>
    have hle : ∀ secs : List Int, secs.Nodup →
        ((secs.map (valuesIn t0 (r :: recs))).flatten).length ≤
          ((secs.map (valuesIn t0 recs)).flatten).length + (if secondOf t0 r.time ∈ secs then 1 else 0) := by
      intro secs hnd
      induction secs with
      | nil => simp
      | cons sec secs ih =>
        simp only [List.nodup_cons] at hnd
        have ih := ih hnd.2
        simp only [List.map_cons, List.flatten_cons, List.length_append]
        by_cases hsec : secondOf t0 r.time = sec
        · have h1 : (valuesIn t0 (r :: recs) sec).length = (valuesIn t0 recs sec).length + 1 := by
            simp [valuesIn, hsec]
          rw [if_neg (by rw [hsec]; exact hnd.1)] at ih
          rw [if_pos (by simp [hsec]), h1]; omega
        · have h1 : (valuesIn t0 (r :: recs) sec).length = (valuesIn t0 recs sec).length := by
            simp [valuesIn, hsec]
          rw [h1]
          have : (secondOf t0 r.time ∈ sec :: secs) ↔ secondOf t0 r.time ∈ secs := by simp [hsec]
          simp only [this]; omega
    have hnd : (windowSeconds n last).Nodup := by
      unfold windowSeconds
      rw [List.Nodup, List.pairwise_map]
      exact List.Pairwise.imp (fun h => by omega) List.nodup_range
    have := hle _ hnd
    rw [List.length_cons]
    split at this <;> omega

end Metrix
