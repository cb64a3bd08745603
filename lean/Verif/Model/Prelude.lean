import Mathlib.Data.Rat.Floor

/-!
# Base of the model: panics, clock, 64-bit integers, floats

Everything in `src/` that can panic or that reads the clock is modelled in the monad `M`.
-/

namespace Metrix

/-- How the crate was compiled: integer overflow panics in debug builds and wraps around in
release builds (rustc default, no override in `/repo/Cargo.toml`). -/
inductive Profile
  | debug
  | release
  deriving DecidableEq, Repr

/-- An `f64`. Not every rational is an `f64`, the model allows more values than there are.
`-0.0` and `0.0` are the same here. -/
inductive F64
  | nan
  | negInf
  | posInf
  | fin (q : Rat)
  deriving DecidableEq, Repr

/-- What `exponential_decay_histogram::Snapshot` reports besides the number of values.
Used by `src/instruments/histogram.rs:207-234`. -/
structure HistStats where
  max : Int
  min : Int
  mean : F64
  stddev : F64
  p25 : Int
  p50 : Int
  p75 : Int
  p95 : Int
  p98 : Int
  p99 : Int
  p999 : Int
  deriving DecidableEq, Repr

/-- The surroundings of a running thread. Theorems quantify over all of them.
* `clock k` is the result of the `k`-th call of `Instant::now()` in nanoseconds.
* `instMin`/`instMax` bound what the platform's `Instant` can represent.
* `rnd` is applied to the exact result of every rounded float operation.
* `alpha1`, `alpha5`, `alpha15` are the values of `1 - exp(-5/60/n)` for n = 1, 5, 15 minutes
  (`src/instruments/fundamentals/metrics_meter.rs:243-246`); `exp` is not modelled.
* `histStats k vs` are the statistics a decaying reservoir that was fed with `vs` reports after
  `k` clock readings. The reservoir is randomized, so nothing is assumed about this function. -/
structure Env where
  profile : Profile
  clock : Nat → Int
  instMin : Int
  instMax : Int
  rnd : Rat → Rat
  alpha1 : Rat
  alpha5 : Rat
  alpha15 : Rat
  histStats : Nat → List Int → HistStats

/-- A computation of a thread: from the surroundings and the number of clock readings made so far
to a result and the new number of clock readings. `none` means that the thread panicked. -/
def M (α : Type) : Type := Env → Nat → Option (α × Nat)

namespace M

def pure (a : α) : M α := fun _ k => some (a, k)

def bind (x : M α) (f : α → M β) : M β := fun e k =>
  match x e k with
  | none => none
  | some (a, k') => f a e k'

instance : Monad M where
  pure := M.pure
  bind := M.bind

/-- `panic!`, or any operation of std that panics. -/
def panic : M α := fun _ _ => none

/-- `Instant::now()` (and the clock reading inside of `Instant::elapsed`). -/
def now : M Int := fun e k => some (e.clock k, k + 1)

/-- The surroundings. -/
def env : M Env := fun e k => some (e, k)

/-- How many clock readings were made so far. -/
def readings : M Nat := fun _ k => some (k, k)

@[simp] theorem run_pure (a : α) (e : Env) (k : Nat) : (Pure.pure a : M α) e k = some (a, k) := rfl

theorem run_bind (x : M α) (f : α → M β) (e : Env) (k : Nat) :
    (x >>= f) e k = match x e k with
      | none => none
      | some (a, k') => f a e k' := rfl

@[simp] theorem run_now (e : Env) (k : Nat) : now e k = some (e.clock k, k + 1) := rfl
@[simp] theorem run_env (e : Env) (k : Nat) : env e k = some (e, k) := rfl
@[simp] theorem run_readings (e : Env) (k : Nat) : readings e k = some (k, k) := rfl
@[simp] theorem run_panic (e : Env) (k : Nat) : (panic : M α) e k = none := rfl

theorem bind_eq_some {x : M α} {f : α → M β} {e : Env} {k : Nat} {r : β × Nat} :
    (x >>= f) e k = some r ↔ ∃ a k', x e k = some (a, k') ∧ f a e k' = some r := by
  rw [run_bind]
  constructor
  · intro h
    split at h
    · cases h
    · rename_i a k' hx; exact ⟨a, k', hx, h⟩
  · rintro ⟨a, k', hx, hf⟩; rw [hx]; exact hf

theorem map_eq_some {x : M α} {f : α → β} {e : Env} {k : Nat} {r : β × Nat} :
    (f <$> x) e k = some r ↔ ∃ a, x e k = some (a, r.2) ∧ f a = r.1 := by
  show (x >>= fun a => Pure.pure (f a)) e k = some r ↔ _
  rw [bind_eq_some]
  constructor
  · rintro ⟨a, k', hx, hf⟩; simp at hf; subst hf; exact ⟨a, hx, rfl⟩
  · rintro ⟨a, hx, hf⟩; exact ⟨a, r.2, hx, by simp [hf]⟩

theorem run_bind_some {x : M α} {f : α → M β} {e : Env} {k k' : Nat} {a : α}
    (h : x e k = some (a, k')) : (x >>= f) e k = f a e k' := by
  rw [run_bind, h]

theorem run_bind_none {x : M α} {f : α → M β} {e : Env} {k : Nat}
    (h : x e k = none) : (x >>= f) e k = none := by
  rw [run_bind, h]

instance : LawfulMonad M := LawfulMonad.mk'
  (id_map := by
    intro α x; funext e k
    show M.bind x _ e k = _
    unfold M.bind; rcases h : x e k with _ | ⟨a, k'⟩ <;> rfl)
  (pure_bind := by intros; rfl)
  (bind_assoc := by
    intro α β γ x f g; funext e k
    show M.bind (M.bind x f) g e k = M.bind x (fun a => M.bind (f a) g) e k
    unfold M.bind; rcases h : x e k with _ | ⟨a, k'⟩ <;> rfl)

end M

/-- The clock never goes backwards (`Instant` is documented to be monotone). -/
def Env.Mono (e : Env) : Prop := ∀ i j, i ≤ j → e.clock i ≤ e.clock j

/-! ## 64-bit integers -/

def u64Bound : Nat := 2 ^ 64
def i64Min : Int := -2 ^ 63
def i64Max : Int := 2 ^ 63 - 1

/-- `x` is a value of type `i64`. -/
def I64 (x : Int) : Prop := i64Min ≤ x ∧ x ≤ i64Max
instance (x : Int) : Decidable (I64 x) := inferInstanceAs (Decidable (_ ∧ _))

/-- `x` is a value of type `u64` (or `usize` on a 64-bit platform). -/
def U64 (x : Nat) : Prop := x < u64Bound
instance (x : Nat) : Decidable (U64 x) := inferInstanceAs (Decidable (_ < _))

/-- Wrap-around to `i64`; also the cast `as i64` of a `u64`. -/
def wrapI64 (x : Int) : Int := Int.bmod x (2 ^ 64)

/-- Wrap-around to `u64`; also the cast `as u64`/`as usize` of an `i64`. -/
def wrapU64 (x : Int) : Nat := (x % 2 ^ 64).toNat

/-- The result of an `i64` operation whose exact result is `x`. -/
def arithI64 (x : Int) : M Int := fun e k =>
  if I64 x then some (x, k) else
    match e.profile with
    | .debug => none
    | .release => some (wrapI64 x, k)

/-- The result of a `u64`/`usize` operation whose exact result is `x`. -/
def arithU64 (x : Nat) : M Nat := fun e k =>
  if U64 x then some (x, k) else
    match e.profile with
    | .debug => none
    | .release => some (x % u64Bound, k)

/-! ## Instants and durations -/

/-- Nanoseconds per second. -/
def nanosPerSec : Nat := 1000000000

/-- `t - d` for `t : Instant` and `d : Duration` of `d` nanoseconds. Panics if the result is not
representable. -/
def subDur (t : Int) (d : Nat) : M Int := fun e k =>
  if e.instMin ≤ t - d then some (t - d, k) else none

/-- `t + d` for `t : Instant` and `d : Duration` of `d` nanoseconds. Panics if the result is not
representable. -/
def addDur (t : Int) (d : Nat) : M Int := fun e k =>
  if t + d ≤ e.instMax then some (t + d, k) else none

/-- `later.duration_since(earlier)`: saturates at zero. -/
def sinceNs (later earlier : Int) : Nat := (later - earlier).toNat

/-! ## Floats -/

namespace F64

/-- `a <= b`; false if one of them is NaN. -/
def le : F64 → F64 → Bool
  | .nan, _ => false
  | _, .nan => false
  | .negInf, _ => true
  | _, .posInf => true
  | .fin a, .fin b => decide (a ≤ b)
  | _, _ => false

/-- `a < b`; false if one of them is NaN. -/
def lt : F64 → F64 → Bool
  | .nan, _ => false
  | _, .nan => false
  | .negInf, .negInf => false
  | .negInf, _ => true
  | .posInf, .posInf => false
  | _, .posInf => true
  | .fin a, .fin b => decide (a < b)
  | _, _ => false

end F64

/-- `f64::round` on a finite value: nearest integer, halves away from zero. -/
def roundHalfAway (q : Rat) : Int :=
  if 0 ≤ q then (q + 1 / 2).floor else (q - 1 / 2).ceil

/-- `v.round() as i64`: saturating, NaN is 0. -/
def F64.roundToI64 : F64 → Int
  | .nan => 0
  | .negInf => i64Min
  | .posInf => i64Max
  | .fin q => max i64Min (min i64Max (roundHalfAway q))

/-- `v.round() as u64`: saturating, NaN is 0. -/
def F64.roundToU64 : F64 → Nat
  | .nan => 0
  | .negInf => 0
  | .posInf => u64Bound - 1
  | .fin q => min (u64Bound - 1) (roundHalfAway q).toNat

end Metrix
