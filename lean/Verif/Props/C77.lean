import Verif.Proof.Binary64
import Verif.Proof.RunRatio
import Verif.Props.C55

/-! # C77: The share of time that a driver spends on processing

`RatioAfter` (in `Verif.Spec.RunRatio`) says which share is to be shown after which iterations. -/

namespace Metrix
variable {σ L : Type} [DecidableEq L] [Custom σ L] [CustomProcessor σ]

variable {e : Env} {k k' : Nat} {name : Option String} {descr : Descr} {strategy : Strategy}
  {programs : List (SendThread (DriverMsg σ L))} {t t' : DriverThread σ L}

/-- A driver with metrics, used from any number of threads by any schedule. Let `x` be an iteration in which a request for
a snapshot is answered, and `before` all the iterations before it. The snapshot shows the share in the last iteration in which it
was measured, and how many times it was measured. -/
theorem C77_shown (hmono : e.Mono) (hr : IsRounding e.rnd) (hf : AllForward σ L)
    (hnew : NewDriver e k name descr strategy true programs t)
    {tl before after : List (TimedIteration σ L)} (h : DriverTimeline e k t tl k' t')
    {x : TimedIteration σ L} (htl : tl = before ++ x :: after)
    (hshort : ∀ y ∈ before, e.clock y.stop - e.clock y.start < 2 ^ 53 * 10 ^ 9) {id : Nat} {d : Bool}
    (hm : x.what.message = some (.getSnapshot id d)) {s : Snapshot} (hs : x.what.answer = some s) :
    ∃ front rest v n current histo, RatioAfter e none 0 before v n ∧
      s = grouped name (front ++ [("_metrix", .snapshot (rest ++ [("iteration_update_ratio_per_mille", current),
        ("iteration_update_ratio_per_mille_histo", histo)]))]) ∧ ShowsCurrent v current ∧ ShowsCount n histo := by
  obtain ⟨l, t₁, v, n, hi, hn, hafter⟩ := h.ratio hmono hr hf hnew.ratio htl hshort
  have key : ∃ (m : Option (DriverMsg σ L)) (l' : LoopState σ L) (started : Int) (answer : Option Snapshot) (k₃ : Nat),
      l.state.begin m e x.start = some ((l', started, answer), k₃) ∧ x.what.message = m ∧ x.what.answer = answer := by
    generalize x.what = w at hi hm hs
    generalize x.stop = st at hi
    cases iterates hi with
    | panicEarly hp hb => cases hs
    | panicLate hp hb hw => exact ⟨_, _, _, _, _, hb, rfl, rfl⟩
    | done hp hb hw => exact ⟨_, _, _, _, _, hb, rfl, rfl⟩
  obtain ⟨m, l', started, answer, k₃, hb, rfl, rfl⟩ := key
  obtain ⟨-, -, -, hput⟩ := begin_ratio hn hb
  obtain ⟨front, rest, c, y, hc, h1, h2⟩ := hput id d hm
  rw [hs] at hc; cases hc
  exact ⟨front, rest, v, n, c, y, hafter, rfl, h1, h2⟩

/-- What is shown is a share: between 0 and 1000. -/
theorem C77_range (hmono : e.Mono) (hr : IsRounding e.rnd) {tl : List (TimedIteration σ L)} {v v' : Option Int} {n n' : Nat}
    (h : RatioAfter e v n tl v' n') (hshort : ∀ y ∈ tl, e.clock y.stop - e.clock y.start < 2 ^ 53 * 10 ^ 9)
    (hv : ∀ x, v = some x → 0 ≤ x ∧ x ≤ 1000) : ∀ x, v' = some x → 0 ≤ x ∧ x ≤ 1000 := by
  induction h with
  | nil => exact hv
  | busy _ _ ih => exact ih (fun y hy => hshort y (List.mem_cons_of_mem _ hy)) hv
  | tooShort _ _ _ ih => exact ih (fun y hy => hshort y (List.mem_cons_of_mem _ hy)) hv
  | @measured v n x tl v' n' run whole hm hpos _ ih =>
    refine ih (fun y hy => hshort y (List.mem_cons_of_mem _ hy)) fun x' hx' => ?_
    cases hx'
    obtain ⟨o, _, _, _, j₁, j₂, j₃, -, -, -, h1, -, h2, h3, h4, h5, h6⟩ := hm
    have a1 : e.clock x.start ≤ e.clock j₁ := hmono _ _ (by omega)
    have a2 : e.clock j₂ ≤ e.clock j₃ := hmono _ _ (by omega)
    have a3 : e.clock j₃ ≤ e.clock x.stop := hmono _ _ (by omega)
    have := hshort x List.mem_cons_self
    exact ⟨Env.perMille_nonneg hr _ _, Env.perMille_le hr (by omega) (by omega)⟩

omit [DecidableEq L] [Custom σ L] [CustomProcessor σ] in
theorem seconds_exact (hid : ∀ x, e.rnd x = x) (d : Nat) : e.seconds d = (d : Rat) / 10 ^ 9 := by
  simp only [Env.seconds, hid]
  have : ((d / 10 ^ 9 * 10 ^ 9 + d % 10 ^ 9 : Nat) : Rat) = (d : Rat) := by rw [Nat.div_add_mod']
  rw [← this]; push_cast; norm_num; ring

omit [DecidableEq L] [Custom σ L] [CustomProcessor σ] in
/-- If nothing were rounded it would be the share, rounded down. With rounding it is 0 if the run took no time and 1000 if it took
all the time, and it does not become smaller if the run takes longer. -/
theorem C77_share (part whole : Nat) (hw : 0 < whole) :
    ((∀ x, e.rnd x = x) → e.perMille part whole = (1000 * part / whole : Nat)) ∧
    (IsRounding e.rnd → 0 < e.seconds whole → e.perMille 0 whole = 0 ∧ e.perMille whole whole = 1000 ∧
      (∀ part', part ≤ part' → part' < 2 ^ 53 * 10 ^ 9 → e.perMille part whole ≤ e.perMille part' whole)) := by
  refine ⟨fun hid => ?_, fun hr hpos => ⟨?_, ?_, fun part' hle hb => ?_⟩⟩
  · have hsec := seconds_exact hid
    simp only [Env.perMille, hsec, hid]
    have : (part : Rat) / 10 ^ 9 / ((whole : Rat) / 10 ^ 9) * 1000 = ((1000 * part : Nat) : Rat) / ((whole : Nat) : Rat) := by
      push_cast; field_simp
    rw [this]
    exact Rat.floor_natCast_div_natCast _ _
  · have h0 : e.seconds 0 = 0 := by simp [Env.seconds, show e.rnd 0 = 0 by simpa using rnd_nat hr (n := 0) (by norm_num)]
    simp only [Env.perMille, h0, zero_div, zero_mul, show e.rnd 0 = 0 by simpa using rnd_nat hr (n := 0) (by norm_num)]
    rfl
  · have h1 : e.rnd 1 = 1 := by simpa using rnd_nat hr (n := 1) (by norm_num)
    have h2 : e.rnd 1000 = 1000 := by simpa using rnd_nat hr (n := 1000) (by norm_num)
    simp only [Env.perMille, div_self hpos.ne', h1, one_mul, h2]
    rfl
  · refine Rat.floor_monotone (hr.mono (mul_le_mul_of_nonneg_right (hr.mono ?_) (by norm_num)))
    exact div_le_div_of_nonneg_right (Env.seconds_mono hr hle hb) hpos.le

section Rounded
variable {u eta : Rat}

theorem seconds_close (hr : IsRounding e.rnd) (hu : 0 ≤ u) (hu1 : u ≤ 1 / 10 ^ 6) (heta : 0 ≤ eta) (heta1 : eta ≤ u / 10 ^ 9)
    (herr : ∀ x, |e.rnd x - x| ≤ u * |x| + eta) {d : Nat} (hd : d < 2 ^ 53 * 10 ^ 9) :
    |e.seconds d - (d : Rat) / 10 ^ 9| ≤ 6 * u * ((d : Rat) / 10 ^ 9) := by
  rcases Nat.eq_zero_or_pos d with rfl | hpos
  · simp [Env.seconds, show e.rnd 0 = 0 by simpa using rnd_nat hr (n := 0) (by norm_num)]
  · have ha : e.rnd ((d / 10 ^ 9 : Nat) : Rat) = ((d / 10 ^ 9 : Nat) : Rat) := rnd_nat hr (by omega)
    have hb : e.rnd ((d % 10 ^ 9 : Nat) : Rat) = ((d % 10 ^ 9 : Nat) : Rat) := rnd_nat hr (by omega)
    have hsum : (d : Rat) / 10 ^ 9 = ((d / 10 ^ 9 : Nat) : Rat) + ((d % 10 ^ 9 : Nat) : Rat) / 10 ^ 9 := by
      have : (d : Rat) = ((10 ^ 9 * (d / 10 ^ 9) + d % 10 ^ 9 : Nat) : Rat) := by rw [Nat.div_add_mod]
      rw [this]; push_cast; field_simp; ring
    have hD : (1 : Rat) / 10 ^ 9 ≤ (d : Rat) / 10 ^ 9 := by
      have : (1 : Rat) ≤ d := by exact_mod_cast hpos
      gcongr
    have hA : (0 : Rat) ≤ ((d / 10 ^ 9 : Nat) : Rat) := by positivity
    have hB : (0 : Rat) ≤ ((d % 10 ^ 9 : Nat) : Rat) / 10 ^ 9 := by positivity
    unfold Env.seconds
    rw [ha, hb]
    generalize (d : Rat) / 10 ^ 9 = D at *
    generalize ((d / 10 ^ 9 : Nat) : Rat) = A at *
    generalize ((d % 10 ^ 9 : Nat) : Rat) / 10 ^ 9 = B at *
    have h1 := abs_le.mp (herr B)
    rw [abs_of_nonneg hB] at h1
    have hee : eta ≤ u * D := by
      calc eta ≤ u / 10 ^ 9 := heta1
        _ = u * (1 / 10 ^ 9) := by ring
        _ ≤ u * D := by gcongr
    have hB' : 0 ≤ e.rnd B := by
      have := hr.mono hB
      rwa [show e.rnd 0 = 0 by simpa using rnd_nat hr (n := 0) (by norm_num)] at this
    have h2 := abs_le.mp (herr (A + e.rnd B))
    rw [abs_of_nonneg (by linarith)] at h2
    have huB : u * B ≤ u * D := by gcongr; linarith
    have huD : 0 ≤ u * D := by positivity
    have hle : A + e.rnd B ≤ 2 * D := by nlinarith
    have hu2 : u * (A + e.rnd B) ≤ u * (2 * D) := by gcongr
    rw [abs_le]
    constructor <;> linarith [h1.1, h1.2, h2.1, h2.2]

/-- With rounding the number that is shown is off by at most 1. The errors are at most `u` relative plus `eta` absolute per operation,
for `f64` 2^-53 and 2^-1075. -/
theorem C77_share_rounded (hr : IsRounding e.rnd) (hu : 0 ≤ u) (hu1 : u ≤ 1 / 10 ^ 6) (heta : 0 ≤ eta) (heta1 : eta ≤ u / 10 ^ 9)
    (herr : ∀ x, |e.rnd x - x| ≤ u * |x| + eta) {part whole : Nat} (hw : 0 < whole) (hp : part ≤ whole) (hb : whole < 2 ^ 53 * 10 ^ 9) :
    ((1000 * part / whole : Nat) : Int) - 1 ≤ e.perMille part whole ∧ e.perMille part whole ≤ ((1000 * part / whole : Nat) : Int) + 1 := by
  have hP := abs_le.mp (seconds_close hr hu hu1 heta heta1 herr (d := part) (by omega))
  have hW := abs_le.mp (seconds_close hr hu hu1 heta heta1 herr (d := whole) hb)
  have hw' : (0 : Rat) < (whole : Rat) / 10 ^ 9 := by have : (0 : Rat) < whole := by exact_mod_cast hw
                                                      positivity
  have hp' : (0 : Rat) ≤ (part : Rat) / 10 ^ 9 := by positivity
  have hpw : (part : Rat) / 10 ^ 9 ≤ (whole : Rat) / 10 ^ 9 := by
    have : (part : Rat) ≤ whole := by exact_mod_cast hp
    gcongr
  have hx : (part : Rat) / 10 ^ 9 / ((whole : Rat) / 10 ^ 9) = (part : Rat) / whole := by field_simp
  have hfl : ((1000 * part / whole : Nat) : Int) = ((1000 * part : Nat) / (whole : Nat) : Rat).floor :=
    (Rat.floor_natCast_div_natCast _ _).symm
  have hx' : ((1000 * part : Nat) / (whole : Nat) : Rat) = 1000 * ((part : Rat) / whole) := by push_cast; ring
  rw [hfl, hx', ← hx]
  unfold Env.perMille
  generalize e.seconds part = P at *
  generalize e.seconds whole = W at *
  generalize (part : Rat) / 10 ^ 9 = p at *
  generalize (whole : Rat) / 10 ^ 9 = w at *
  have hWlo : (1 - 6 * u) * w ≤ W := by linarith
  have hWhi : W ≤ (1 + 6 * u) * w := by linarith
  have hPlo : (1 - 6 * u) * p ≤ P := by linarith
  have hPhi : P ≤ (1 + 6 * u) * p := by linarith
  have hWpos : 0 < W := lt_of_lt_of_le (by apply mul_pos <;> linarith) hWlo
  have hPnn : 0 ≤ P := le_trans (by apply mul_nonneg <;> linarith) hPlo
  set x := p / w with hxdef
  have hxw : p = x * w := by rw [hxdef]; field_simp
  have hx0 : 0 ≤ x := by positivity
  have hx1 : x ≤ 1 := by rw [hxdef, div_le_one hw']; exact hpw
  have hyhi : P / W ≤ x + 13 * u := by
    rw [div_le_iff₀ hWpos]
    have h1 : (x + 13 * u) * ((1 - 6 * u) * w) ≤ (x + 13 * u) * W := by gcongr
    have h2 : (1 + 6 * u) * (x * w) ≤ (x + 13 * u) * ((1 - 6 * u) * w) := by
      have : 0 ≤ ((x + 13 * u) * (1 - 6 * u) - (1 + 6 * u) * x) * w := by
        apply mul_nonneg _ hw'.le
        nlinarith
      linarith
    rw [hxw] at hPhi
    linarith
  have hylo : x - 12 * u ≤ P / W := by
    rw [le_div_iff₀ hWpos]
    rcases le_or_gt (x - 12 * u) 0 with hneg | hpos
    · nlinarith
    · have h1 : (x - 12 * u) * W ≤ (x - 12 * u) * ((1 + 6 * u) * w) := by gcongr
      have h2 : (x - 12 * u) * ((1 + 6 * u) * w) ≤ (1 - 6 * u) * (x * w) := by
        have : 0 ≤ ((1 - 6 * u) * x - (x - 12 * u) * (1 + 6 * u)) * w := by
          apply mul_nonneg _ hw'.le
          nlinarith
        linarith
      rw [hxw] at hPlo
      linarith
  have hy0 : 0 ≤ P / W := by positivity
  have hQ := abs_le.mp (herr (P / W))
  rw [abs_of_nonneg hy0] at hQ
  generalize P / W = y at *
  have hzero : e.rnd 0 = 0 := by simpa using rnd_nat hr (n := 0) (by norm_num)
  have hQ0 : 0 ≤ e.rnd y := by have := hr.mono hy0; rwa [hzero] at this
  generalize e.rnd y = Q at *
  have hR := abs_le.mp (herr (Q * 1000))
  rw [abs_of_nonneg (by linarith)] at hR
  generalize e.rnd (Q * 1000) = R at *
  have hy2 : u * y ≤ u * 2 := by gcongr; linarith
  have heu : eta ≤ u := le_trans heta1 (by linarith)
  have hQ2 : u * (Q * 1000) ≤ u * 2000 := by gcongr; linarith
  have hlo : 1000 * x - 1 < R := by linarith
  have hhi : R < 1000 * x + 1 := by linarith
  constructor
  · rw [Rat.le_floor_iff]
    push_cast
    have := Rat.floor_le (1000 * x)
    linarith
  · have h := Rat.lt_floor (x := 1000 * x)
    have : R.floor < (1000 * x).floor + 1 + 1 := by
      rw [Rat.floor_lt_iff]
      push_cast
      push_cast at h
      linarith
    omega

/-- For `f64`: off by at most 1 in iterations of less than 2^53 seconds. -/
theorem C77_share_binary64 (hr : e.rnd = binary64) {part whole : Nat} (hw : 0 < whole) (hp : part ≤ whole) (hb : whole < 2 ^ 53 * 10 ^ 9) :
    ((1000 * part / whole : Nat) : Int) - 1 ≤ e.perMille part whole ∧ e.perMille part whole ≤ ((1000 * part / whole : Nat) : Int) + 1 :=
  C77_share_rounded (u := 2 ^ (-53 : Int)) (eta := 2 ^ (-1075 : Int)) (hr ▸ binary64_isRounding) (by positivity) (by norm_num)
    (zpow_nonneg (by norm_num) _)
    (by
      rw [show (-1075 : Int) = -53 + -1022 by norm_num, zpow_add₀ (by norm_num), div_eq_mul_inv]
      refine mul_le_mul_of_nonneg_left ?_ (by positivity)
      rw [zpow_neg]
      refine inv_anti₀ (by norm_num) ?_
      have large : ∀ n : Nat, 30 ≤ n → (10 : Rat) ^ 9 ≤ 2 ^ (n : Int) := by
        intro n hn
        rw [zpow_natCast]
        exact le_trans (by norm_num) (pow_le_pow_right₀ (by norm_num) hn)
      exact large 1022 (by norm_num))
    (by rw [hr]; exact binary64_error) hw hp hb

end Rounded

/-- A run of 1 second in an iteration of 3 seconds: 332, 333 or 334. -/
example : let e : Env := { ticking with rnd := binary64 }
    332 ≤ e.perMille (10 ^ 9) (3 * 10 ^ 9) ∧ e.perMille (10 ^ 9) (3 * 10 ^ 9) ≤ 334 :=
  C77_share_binary64 rfl (part := 10 ^ 9) (whole := 3 * 10 ^ 9) (by norm_num) (by norm_num) (by norm_num)

/-- `ticking` does not round. -/
theorem ticking_rounding : IsRounding ticking.rnd := ⟨fun _ _ h => h, fun _ _ => rfl⟩

/-- The driver of C55 that drops observations: the share was measured in the first iteration. In the second one observations were
dropped, so that it was not measured. -/
example : ∃ (s front rest : Snapshot) (p : Int) (current histo : ItemKind), (dropping₃.2.1.bind (·.answer)) = some s ∧
    s = grouped (some "d") (front ++ [("_metrix", .snapshot (rest ++ [("iteration_update_ratio_per_mille", current),
        ("iteration_update_ratio_per_mille_histo", histo)]))]) ∧
    ShowsCurrent (some p) current ∧ 0 ≤ p ∧ p ≤ 1000 ∧ ShowsCount 1 histo := by
  have h1 : (dropping₁.2.1.map fun i => i.outcome) = some (some {}) ∧ dropping₁.2.2 = 64 := by decide +kernel
  have h2 : (dropping₂.2.1.map fun i => i.outcome) = some (some ⟨0, 4, 0, 0⟩) ∧ dropping₂.2.2 = 84 := by decide +kernel
  have h3 : (dropping₃.2.1.map fun i => (i.message.map fun m => requests [m], i.answer.isSome)) = some (some [2], true) ∧
      dropping₃.2.2 = 134 := by decide +kernel
  have h4 : droppingState.2 ≤ 64 := by decide +kernel
  obtain ⟨i₁, e₁, o₁⟩ := Option.map_eq_some_iff.mp h1.1
  obtain ⟨i₂, e₂, o₂⟩ := Option.map_eq_some_iff.mp h2.1
  obtain ⟨i₃, e₃, o₃⟩ := Option.map_eq_some_iff.mp h3.1
  simp only [Prod.mk.injEq] at o₃
  obtain ⟨s, hs⟩ := Option.isSome_iff_exists.mp o₃.2
  obtain ⟨m, hm, hr⟩ := Option.map_eq_some_iff.mp o₃.1
  have hget : ∃ id d, m = .getSnapshot id d := by
    cases m <;> simp [requests] at hr ⊢
  obtain ⟨id, d, rfl⟩ := hget
  have life : DriverTimeline ticking droppingState.2 droppingDriver
      [⟨droppingState.2, i₁, 64⟩, ⟨64, i₂, 84⟩, ⟨84, i₃, 134⟩] 134 dropping₃.1 :=
    .iteration (t₁ := dropping₁.1) le_rfl (by rw [← e₁, ← h1.2]; rfl) <|
    .iteration (t₁ := dropping₂.1) le_rfl (by rw [← e₂, ← h2.2, ← h1.2]; rfl) <|
    .iteration (t₁ := dropping₃.1) le_rfl (by rw [← e₃, ← h3.2, ← h2.2]; rfl) <| .nil le_rfl
  have hshort : ∀ y ∈ ([⟨droppingState.2, i₁, 64⟩, ⟨64, i₂, 84⟩] : List (TimedIteration Empty Nat)),
      ticking.clock y.stop - ticking.clock y.start < 2 ^ 53 * 10 ^ 9 := by
    intro y hy
    simp only [List.mem_cons, List.not_mem_nil, or_false] at hy
    rcases hy with rfl | rfl <;> simp only [ticking] <;> omega
  obtain ⟨front, rest, v, n, current, histo, hafter, hc, hv, hn⟩ := C77_shown
    (before := [⟨droppingState.2, i₁, 64⟩, ⟨64, i₂, 84⟩]) (after := [])
    ticking_mono ticking_rounding emptyAllForward droppingDriver_new life rfl hshort hm hs
  have hrange := C77_range ticking_mono ticking_rounding hafter hshort (fun _ h => by cases h)
  have key : v.isSome = true ∧ n = 1 := by
    cases hafter with
    | busy hb => have := hb _ o₁; simp at this
    | @tooShort _ _ _ _ _ _ run whole hme hle =>
      obtain ⟨o, _, _, _, j₁, j₂, j₃, -, -, -, g1, -, g2, g3, g4, -, g6⟩ := hme
      rw [seconds_exact (fun _ => rfl)] at hle
      have hlt : ticking.clock droppingState.2 < ticking.clock j₃ := by
        simp only [ticking] at g1 ⊢; omega
      have hpos : (0 : Rat) < (whole : Rat) / 10 ^ 9 := by
        have : 0 < whole := by simp only at g6; omega
        positivity
      linarith
    | measured _ _ hrest =>
      cases hrest with
      | busy _ hrest => cases hrest; exact ⟨rfl, rfl⟩
      | tooShort hme | measured hme =>
        obtain ⟨o, _, _, _, j₁, j₂, j₃, g0, g1, -⟩ := hme
        rw [o₂] at g0; cases g0; simp at g1
  obtain ⟨p, rfl⟩ := Option.isSome_iff_exists.mp key.1
  obtain ⟨p0, p1⟩ := hrange p rfl
  exact ⟨s, front, rest, p, current, histo, by rw [e₃]; exact hs, hc, hv, p0, p1, key.2 ▸ hn⟩

end Metrix
