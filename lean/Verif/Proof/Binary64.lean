import Verif.Spec.Binary64
import Mathlib.Tactic.Linarith
import Mathlib.Tactic.Ring
import Mathlib.Tactic.FieldSimp
import Mathlib.Tactic.Positivity
import Mathlib.Tactic.NormNum

/-! # Properties of rounding to `f64` -/

namespace Metrix

theorem nearestEven_error (q : Rat) : |(nearestEven q : Rat) - q| ≤ 1 / 2 := by
  have h1 := Int.floor_le q
  have h2 := Int.lt_floor_add_one q
  unfold nearestEven
  simp only
  rw [abs_le]
  split_ifs <;> push_cast <;> constructor <;> linarith

theorem nearestEven_int (n : Int) : nearestEven n = n := by
  simp [nearestEven]

theorem nearestEven_mono {p q : Rat} (h : p ≤ q) : nearestEven p ≤ nearestEven q := by
  have hf : ⌊p⌋ ≤ ⌊q⌋ := Int.floor_mono h
  have h1 := Int.floor_le p
  have h2 := Int.lt_floor_add_one p
  have h3 := Int.floor_le q
  have h4 := Int.lt_floor_add_one q
  rcases hf.lt_or_eq with hlt | heq
  · have : nearestEven p ≤ ⌊p⌋ + 1 := by unfold nearestEven; simp only; split_ifs <;> omega
    have : ⌊q⌋ ≤ nearestEven q := by unfold nearestEven; simp only; split_ifs <;> omega
    omega
  · unfold nearestEven
    simp only [heq]
    split_ifs <;> first | omega | (exfalso; linarith)

theorem nearestEven_nonneg {q : Rat} (h : 0 ≤ q) : 0 ≤ nearestEven q := by
  have := nearestEven_mono h
  rwa [show nearestEven 0 = 0 from nearestEven_int 0] at this

theorem nearestEven_double {q : Rat} (h : 0 ≤ q) : (nearestEven q : Rat) ≤ 2 * q := by
  have h1 := Int.floor_le q
  have h2 := Int.lt_floor_add_one q
  have h0 : 0 ≤ ⌊q⌋ := Int.floor_nonneg.mpr h
  unfold nearestEven
  simp only
  rcases h0.lt_or_eq with hp | hz
  · have : (1 : Rat) ≤ ⌊q⌋ := by exact_mod_cast hp
    split_ifs <;> push_cast <;> linarith
  · rw [← hz]
    split_ifs <;> push_cast <;> linarith

/-- On numbers that are not negative. -/
def binary64Pos (x : Rat) : Rat := nearestEven (x / 2 ^ lastBit x) * 2 ^ lastBit x

theorem two_zpow_pos (n : Int) : (0 : Rat) < 2 ^ n := zpow_pos (by norm_num) n

theorem log_eq {m : Rat} (h : 0 < m) : (2 : Rat) ^ Int.log 2 m ≤ m ∧ m < 2 ^ (Int.log 2 m + 1) := by
  constructor
  · have := Int.zpow_log_le_self (b := 2) (R := Rat) (by norm_num) h
    exact_mod_cast this
  · have := Int.lt_zpow_succ_log_self (b := 2) (R := Rat) (by norm_num) m
    exact_mod_cast this

/-- An integer number of units of an exponent. -/
theorem unit_multiple (m : Int) {a b : Int} (h : b ≤ a) : ∃ n : Int, (m : Rat) * 2 ^ a / 2 ^ b = n := by
  obtain ⟨d, rfl⟩ : ∃ d : Nat, a = b + d := ⟨(a - b).toNat, by omega⟩
  refine ⟨m * 2 ^ d, ?_⟩
  rw [zpow_add₀ (by norm_num)]
  have := (two_zpow_pos b).ne'
  push_cast
  rw [zpow_natCast]
  field_simp

theorem binary64Pos_of_multiple {x : Rat} {m : Int} {a : Int} (hx : x = m * 2 ^ a) (h : lastBit x ≤ a) :
    binary64Pos x = x := by
  obtain ⟨n, hn⟩ := unit_multiple m h
  rw [← hx] at hn
  unfold binary64Pos
  rw [hn, nearestEven_int, ← hn]
  have := (two_zpow_pos (lastBit x)).ne'
  field_simp

theorem binary64Pos_exact {x : Rat} {m : Int} {a : Int} (h0 : 0 ≤ x) (hx : x = m * 2 ^ a) (hm : m ≤ 2 ^ 53)
    (ha : -1074 ≤ a) : binary64Pos x = x := by
  rcases h0.lt_or_eq with hp | hz
  swap
  · subst hz; simp [binary64Pos, show nearestEven 0 = 0 from nearestEven_int 0]
  obtain ⟨hl, hr⟩ := log_eq hp
  rcases hm.lt_or_eq with hlt | heq
  · refine binary64Pos_of_multiple hx ?_
    have : (2 : Rat) ^ Int.log 2 x < 2 ^ (a + 53) := by
      refine lt_of_le_of_lt hl ?_
      rw [hx, zpow_add₀ (by norm_num), mul_comm]
      refine mul_lt_mul_of_pos_left ?_ (two_zpow_pos a)
      exact_mod_cast hlt
    have := (zpow_lt_zpow_iff_right₀ (by norm_num : (1 : Rat) < 2)).mp this
    unfold lastBit
    omega
  · refine binary64Pos_of_multiple (m := 1) (a := a + 53) ?_ ?_
    · rw [hx, heq, zpow_add₀ (by norm_num)]; push_cast; norm_num; ring
    · have : (2 : Rat) ^ Int.log 2 x < 2 ^ (a + 54) := by
        refine lt_of_le_of_lt hl ?_
        rw [hx, heq, show a + 54 = a + 53 + 1 by ring, zpow_add₀ (by norm_num : (2 : Rat) ≠ 0) (a + 53),
          zpow_add₀ (by norm_num)]
        have := two_zpow_pos a
        push_cast
        linarith
      have := (zpow_lt_zpow_iff_right₀ (by norm_num : (1 : Rat) < 2)).mp this
      unfold lastBit
      omega

theorem lastBit_mono {x y : Rat} (hx : 0 < x) (h : x ≤ y) : lastBit x ≤ lastBit y := by
  have := Int.log_mono_right (b := 2) hx h
  unfold lastBit
  omega

theorem binary64Pos_mono {x y : Rat} (h0 : 0 ≤ x) (h : x ≤ y) : binary64Pos x ≤ binary64Pos y := by
  rcases h0.lt_or_eq with hp | hz
  swap
  · subst hz
    rw [show binary64Pos 0 = 0 by simp [binary64Pos, show nearestEven 0 = 0 from nearestEven_int 0]]
    unfold binary64Pos
    have := nearestEven_nonneg (q := y / 2 ^ lastBit y) (div_nonneg h (two_zpow_pos _).le)
    exact mul_nonneg (by exact_mod_cast this) (two_zpow_pos _).le
  have hy := lt_of_lt_of_le hp h
  have same : ∀ {e : Int} {p q : Rat}, p ≤ q →
      (nearestEven (p / 2 ^ e) : Rat) * 2 ^ e ≤ nearestEven (q / 2 ^ e) * 2 ^ e := by
    intro e p q hpq
    refine mul_le_mul_of_nonneg_right ?_ (two_zpow_pos e).le
    exact_mod_cast nearestEven_mono (div_le_div_of_nonneg_right hpq (two_zpow_pos e).le)
  rcases (lastBit_mono hp h).lt_or_eq with hlt | heq
  · -- a power of two lies between them
    have hk : lastBit y = Int.log 2 y - 52 := by unfold lastBit at *; omega
    obtain ⟨hl, -⟩ := log_eq hy
    obtain ⟨-, hr⟩ := log_eq hp
    have hx2 : x ≤ 2 ^ Int.log 2 y := by
      refine hr.le.trans (zpow_le_zpow_right₀ (by norm_num) ?_)
      unfold lastBit at *; omega
    have a1 : (nearestEven (2 ^ Int.log 2 y / 2 ^ lastBit x) : Rat) * 2 ^ lastBit x = 2 ^ Int.log 2 y := by
      obtain ⟨n, hn⟩ := unit_multiple 1 (a := Int.log 2 y) (b := lastBit x) (by unfold lastBit at *; omega)
      rw [Int.cast_one, one_mul] at hn
      rw [hn, nearestEven_int, ← hn, div_mul_cancel₀ _ (two_zpow_pos _).ne']
    have a2 : (nearestEven (2 ^ Int.log 2 y / 2 ^ lastBit y) : Rat) * 2 ^ lastBit y = 2 ^ Int.log 2 y := by
      obtain ⟨n, hn⟩ := unit_multiple 1 (a := Int.log 2 y) (b := lastBit y) (by omega)
      rw [Int.cast_one, one_mul] at hn
      rw [hn, nearestEven_int, ← hn, div_mul_cancel₀ _ (two_zpow_pos _).ne']
    exact (same hx2).trans ((a1.trans a2.symm).le.trans (same hl))
  · unfold binary64Pos
    rw [heq]
    exact same h

theorem binary64Pos_nonneg {x : Rat} (h : 0 ≤ x) : 0 ≤ binary64Pos x := by
  have := binary64Pos_mono le_rfl h
  rwa [show binary64Pos 0 = 0 by simp [binary64Pos, show nearestEven 0 = 0 from nearestEven_int 0]] at this

theorem binary64Pos_double {x : Rat} (h : 0 ≤ x) : binary64Pos x ≤ 2 * x := by
  unfold binary64Pos
  have hp := two_zpow_pos (lastBit x)
  have := nearestEven_double (q := x / 2 ^ lastBit x) (div_nonneg h hp.le)
  calc (nearestEven (x / 2 ^ lastBit x) : Rat) * 2 ^ lastBit x
      ≤ 2 * (x / 2 ^ lastBit x) * 2 ^ lastBit x := mul_le_mul_of_nonneg_right this hp.le
    _ = 2 * x := by field_simp

theorem binary64Pos_error {x : Rat} (h : 0 ≤ x) : |binary64Pos x - x| ≤ 2 ^ (-53 : Int) * x + 2 ^ (-1075 : Int) := by
  have hp := two_zpow_pos (lastBit x)
  have h1 : |binary64Pos x - x| ≤ 2 ^ lastBit x / 2 := by
    have he : binary64Pos x - x = ((nearestEven (x / 2 ^ lastBit x) : Rat) - x / 2 ^ lastBit x) * 2 ^ lastBit x := by
      unfold binary64Pos; field_simp
    rw [he, abs_mul, abs_of_pos hp]
    have := mul_le_mul_of_nonneg_right (nearestEven_error (x / 2 ^ lastBit x)) hp.le
    linarith
  rcases h.lt_or_eq with hx | hz
  swap
  · subst hz
    have : binary64Pos 0 = 0 := by simp [binary64Pos, show nearestEven 0 = 0 from nearestEven_int 0]
    rw [this]; simp only [sub_zero, abs_zero, mul_zero, zero_add]; exact (two_zpow_pos _).le
  obtain ⟨hl, -⟩ := log_eq hx
  refine h1.trans ?_
  have hhalf : ∀ n : Int, (2 : Rat) ^ n / 2 = 2 ^ (n - 1) := by
    intro n; rw [zpow_sub₀ (by norm_num)]; norm_num
  rcases le_total (Int.log 2 x - 52) (-1074) with hc | hc
  · have : lastBit x = -1074 := by unfold lastBit; omega
    rw [this, hhalf]
    have : (0 : Rat) ≤ 2 ^ (-53 : Int) * x := mul_nonneg (two_zpow_pos _).le h
    norm_num at this ⊢
    linarith
  · have : lastBit x = Int.log 2 x - 52 := by unfold lastBit; omega
    rw [this, hhalf, show Int.log 2 x - 52 - 1 = -53 + Int.log 2 x by ring, zpow_add₀ (by norm_num)]
    have := mul_le_mul_of_nonneg_left hl (two_zpow_pos (-53)).le
    have := two_zpow_pos (-1075)
    linarith

theorem binary64_of_nonneg {x : Rat} (h : 0 ≤ x) : binary64 x = binary64Pos x := if_pos h

theorem binary64_neg (x : Rat) : binary64 (-x) = -binary64 x := by
  have z : nearestEven 0 = 0 := nearestEven_int 0
  rcases lt_trichotomy x 0 with h | h | h
  · unfold binary64
    rw [if_pos (by linarith), if_neg (by linarith)]; simp
  · subst h; simp [binary64, z]
  · unfold binary64
    rw [if_neg (by linarith), if_pos h.le]; simp

theorem binary64_of_neg {x : Rat} (h : x ≤ 0) : binary64 x = -binary64Pos (-x) := by
  rw [← binary64_of_nonneg (by linarith : 0 ≤ -x), binary64_neg, neg_neg]

/-- Monotone. -/
theorem binary64_mono : Monotone binary64 := by
  intro x y h
  rcases le_total 0 x with hx | hx
  · rw [binary64_of_nonneg hx, binary64_of_nonneg (hx.trans h)]; exact binary64Pos_mono hx h
  · rcases le_total 0 y with hy | hy
    · rw [binary64_of_neg hx, binary64_of_nonneg hy]
      have := binary64Pos_nonneg (by linarith : 0 ≤ -x)
      have := binary64Pos_nonneg hy
      linarith
    · rw [binary64_of_neg hx, binary64_of_neg hy]
      have := binary64Pos_mono (by linarith : 0 ≤ -y) (by linarith : -y ≤ -x)
      linarith

/-- Numbers with at most 53 bits are not changed. -/
theorem binary64_exact {x : Rat} {m a : Int} (hx : x = m * 2 ^ a) (hm : |m| ≤ 2 ^ 53) (ha : -1074 ≤ a) :
    binary64 x = x := by
  rw [abs_le] at hm
  rcases le_total 0 x with h | h
  · rw [binary64_of_nonneg h]; exact binary64Pos_exact h hx hm.2 ha
  · rw [binary64_of_neg h, binary64Pos_exact (m := -m) (a := a) (by linarith) (by rw [hx]; push_cast; ring) (by omega) ha,
      neg_neg]

theorem binary64Pos_form {x : Rat} (h : 0 ≤ x) : ∃ m a : Int, binary64Pos x = m * 2 ^ a ∧ 0 ≤ m ∧ m ≤ 2 ^ 53 ∧ -1074 ≤ a := by
  refine ⟨nearestEven (x / 2 ^ lastBit x), lastBit x, rfl, nearestEven_nonneg (div_nonneg h (two_zpow_pos _).le), ?_,
    le_max_right _ _⟩
  have hq : x / 2 ^ lastBit x ≤ ((2 ^ 53 : Int) : Rat) := by
    rcases h.lt_or_eq with hp | hz
    · obtain ⟨-, hr⟩ := log_eq hp
      rw [div_le_iff₀ (two_zpow_pos _)]
      refine hr.le.trans ?_
      have : ((2 ^ 53 : Int) : Rat) * 2 ^ lastBit x = 2 ^ (53 + lastBit x) := by
        rw [zpow_add₀ (by norm_num)]; norm_num
      rw [this]
      exact zpow_le_zpow_right₀ (by norm_num) (by unfold lastBit; omega)
    · subst hz; simp
  have := nearestEven_mono hq
  rwa [nearestEven_int] at this

/-- Rounded numbers stay what they are. -/
theorem binary64_idem (x : Rat) : binary64 (binary64 x) = binary64 x := by
  rcases le_total 0 x with h | h
  · rw [binary64_of_nonneg h]
    obtain ⟨m, a, e, h0, h1, h2⟩ := binary64Pos_form h
    exact binary64_exact e (by rw [abs_of_nonneg h0]; exact h1) h2
  · rw [binary64_of_neg h]
    obtain ⟨m, a, e, h0, h1, h2⟩ := binary64Pos_form (x := -x) (by linarith)
    exact binary64_exact (m := -m) (a := a) (by rw [e]; push_cast; ring) (by rw [abs_neg, abs_of_nonneg h0]; exact h1) h2

theorem binary64_isRounding : IsRounding binary64 where
  mono := binary64_mono
  exact n hn := binary64_exact (m := n) (a := 0) (by simp) hn (by norm_num)

theorem binary64_isSymmetricRounding : IsSymmetricRounding binary64 where
  mono := binary64_mono
  idem := binary64_idem
  odd := binary64_neg
  double x hx := by rw [binary64_of_nonneg hx]; exact binary64Pos_double hx

/-- The error is at most half a unit in the last place: 2^-53 of the number, or 2^-1075. -/
theorem binary64_error (x : Rat) : |binary64 x - x| ≤ 2 ^ (-53 : Int) * |x| + 2 ^ (-1075 : Int) := by
  rcases le_total 0 x with h | h
  · rw [binary64_of_nonneg h, abs_of_nonneg h]; exact binary64Pos_error h
  · rw [binary64_of_neg h, abs_of_nonpos h]
    have := binary64Pos_error (x := -x) (by linarith)
    rwa [show -binary64Pos (-x) - x = -(binary64Pos (-x) - -x) by ring, abs_neg]

end Metrix
