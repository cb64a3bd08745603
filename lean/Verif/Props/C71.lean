import Verif.Spec.Numbers
import Verif.Props.C22
import Verif.Props.C34
import Verif.Props.C38
import Verif.Props.C43
import Verif.Props.C69

/-! # C71: a number stays the same number on its way from the observer into the snapshot and the JSON -/

namespace Metrix

theorem IntType.holds_cases {t : IntType} {v : Int} (h : t.Holds v) :
    (t.signed = true ∧ I64 v) ∨ (t.signed = false ∧ 0 ≤ v ∧ v < 2 ^ 64) := by
  cases t <;> simp [IntType.Holds, IntType.signed, IntType.bits] at h <;>
    simp [IntType.signed, I64, i64Min, i64Max] <;> omega

theorem wrapU64_of_range {x : Int} (h0 : 0 ≤ x) (h1 : x < 2 ^ 64) : ((wrapU64 x : Nat) : Int) = x := by
  unfold wrapU64; omega

theorem ItemKind.ofInt_eq {t : IntType} {v : Int} (h : t.Holds v) :
    ItemKind.ofInt v t = if t.signed then .int v else .uint v.toNat := by
  have h' := IntType.holds_cases h
  have hu : 0 ≤ v ∧ v < 2 ^ 64 → wrapU64 v = v.toNat := by
    intro h; have := wrapU64_of_range h.1 h.2; omega
  cases t <;> simp [IntType.signed] at h' <;> simp [ItemKind.ofInt, IntType.signed] <;>
    first | exact wrapI64_of_I64 h' | exact hu h'

theorem ObservedValue.ofInt_eq {t : IntType} {v : Int} {x : ObservedValue} (h : Observes v t x) :
    x = if t.signed then .signedInteger v else .unsignedInteger v.toNat := by
  obtain ⟨h, hx⟩ := h
  have h' := IntType.holds_cases h
  have hu : 0 ≤ v ∧ v < 2 ^ 64 → wrapU64 v = v.toNat := by
    intro h; have := wrapU64_of_range h.1 h.2; omega
  cases t <;> simp [IntType.signed] at h' <;> simp [ObservedValue.ofInt, IntType.signed] at hx ⊢ <;>
    first | exact hx.symm | (rw [← hx, hu h'])

/-- A value of an integer type becomes an item that is this number, is signed iff the type is, is in range, and is
this number in JSON. -/
theorem C71_item {t : IntType} {v : Int} (h : t.Holds v) :
    (ItemKind.ofInt v t).number? = some v ∧ ((ItemKind.ofInt v t).IsSigned ↔ t.signed = true) ∧
    (ItemKind.ofInt v t).Proper ∧ ∀ b, (ItemKind.ofInt v t).toJson b = .num v := by
  rw [ItemKind.ofInt_eq h]
  rcases IntType.holds_cases h with ⟨ht, hv⟩ | ⟨ht, h0, h1⟩
  · simp [ht, ItemKind.number?, ItemKind.IsSigned, ItemKind.Proper, ItemKind.toJson, hv]
  · have : U64 v.toNat := by unfold U64 u64Bound; omega
    simp [ht, ItemKind.number?, ItemKind.IsSigned, ItemKind.Proper, ItemKind.toJson, this, h0]

/-- What is sent when an integer is observed: every type but `isize` can be; it is no change, and read back as an
integer it is the same number or, if that type does not have it, nothing. -/
theorem C71_observed {t : IntType} {v : Int} (h : t.Holds v) :
    (t ≠ .isize ↔ ∃ x, Observes v t x) ∧
    ∀ x, Observes v t x → x.InRange ∧ x.isDelta = false ∧ x.toItemKind = some (ItemKind.ofInt v t) ∧
      ItemKind.ofObserved x = some (ItemKind.ofInt v t) ∧
      x.convertToI64 = (if I64 v then some v else none) ∧
      x.convertToU64.map Int.ofNat = (if 0 ≤ v then some v else none) ∧
      x.convertToBool = some (decide (v ≠ 0)) := by
  refine ⟨?_, fun x hx => ?_⟩
  · cases t <;> simp [Observes, ObservedValue.ofInt, h]
  rw [ItemKind.ofInt_eq h, ObservedValue.ofInt_eq hx]
  rcases IntType.holds_cases h with ⟨ht, hv⟩ | ⟨ht, h0, h1⟩
  · simp only [ht, if_true]
    refine ⟨hv, rfl, rfl, rfl, by simp [ObservedValue.convertToI64, hv], ?_, rfl⟩
    by_cases h0 : 0 ≤ v
    · simp [ObservedValue.convertToU64, h0]
    · simp [ObservedValue.convertToU64, h0]
  · simp only [ht, Bool.false_eq_true, if_false]
    refine ⟨by unfold ObservedValue.InRange U64 u64Bound; omega, rfl, rfl, rfl, ?_, ?_, ?_⟩
    · have : I64 v ↔ ((v.toNat : Nat) : Int) ≤ i64Max := by unfold I64 i64Min i64Max; omega
      simp only [ObservedValue.convertToI64, this, Int.toNat_of_nonneg h0]
    · simp [ObservedValue.convertToU64, h0]
    · simp only [ObservedValue.convertToBool]; congr 1; rw [decide_eq_decide]; omega

/-- The two ways to turn an observed value into an item are the same. -/
theorem C71_same_item (x : ObservedValue) : ItemKind.ofObserved x = x.toItemKind := by
  cases x <;> rfl

/-- The changes users can request are the changes that are sent, and are in range. -/
theorem C71_change :
    ChangeRequest.increment.toValue = .changedBy 1 ∧ ChangeRequest.decrement.toValue = .changedBy (-1) ∧
    (∀ n : Nat, IntType.u32.Holds n → ∃ p q, (ChangeRequest.incrementBy n).toValue = .changedBy p ∧ p = n ∧
      (ChangeRequest.decrementBy n).toValue = .changedBy q ∧ p + q = 0 ∧ I64 p ∧ I64 q) ∧
    (∀ v : Int, IntType.i64.Holds v → (ChangeRequest.changeBy v).toValue = .changedBy v ∧ I64 v) := by
  refine ⟨rfl, rfl, fun n hn => ⟨n, -n, rfl, rfl, rfl, by omega, ?_⟩, fun v hv => ⟨rfl, ?_⟩⟩
  · simp [IntType.Holds, IntType.signed, IntType.bits] at hn
    unfold I64 i64Min i64Max; omega
  · simp [IntType.Holds, IntType.signed, IntType.bits] at hv
    unfold I64 i64Min i64Max; omega

/-! ## From the observation to the snapshot -/

theorem arrivals_append {β : Type} (clock : Nat → Int) (sel : Update → Option β) (l₁ l₂ : List (Event Update)) :
    arrivals clock sel (l₁ ++ l₂) = arrivals clock sel l₁ ++ arrivals clock sel l₂ := by
  induction l₁ with
  | nil => rfl
  | cons ev l ih =>
    obtain ⟨_, op, _, _⟩ := ev
    cases op with
    | input u => simp only [List.cons_append, arrivals]; cases sel u <;> simp [ih]
    | snapshot s d => simpa only [List.cons_append, arrivals] using ih

theorem arrivals_nil {β : Type} (clock : Nat → Int) (sel : Update → Option β) {log : List (Event Update)}
    (h : ∀ u ∈ inputs log, sel u = none) : arrivals clock sel log = [] := by
  induction log with
  | nil => rfl
  | cons ev l ih =>
    obtain ⟨_, op, _, _⟩ := ev
    cases op with
    | input u =>
      simp only [inputs, List.mem_cons, forall_eq_or_imp] at h
      simp only [arrivals, h.1]; exact ih h.2
    | snapshot s d => simp only [inputs] at h; simp only [arrivals]; exact ih h

/-- A data display shows the integer last observed: whatever was observed before, whatever undisplayable comes after, until
the time to reset has passed. -/
theorem C71_display {e : Env} {k k' k'' start stop : Nat} {x x' : DataDisplay} {before after : List (Event Update)}
    {out : Out} {t : IntType} {v ts : Int} {o : ObservedValue}
    (h : History e k x (before ++ ⟨start, .input (.withValue o ts), out, stop⟩ :: after) k' x')
    (h0 : x.stayOnUntil = none) (ho : Observes v t o) (hafter : ∀ u ∈ inputs after, u.displayable = none)
    (htime : ∀ r, x.resetAfter = some r → e.clock k' ≤ e.clock (stop - 1) + r) {into s : Snapshot} {d : Bool}
    (hput : x'.putSnapshot into d e k' = some (s, k'')) :
    ∃ item, s = putPostfixedDescriptives x.descr x.name into d ++ [(x.name, item)] ∧ item.number? = some v ∧
      (item.IsSigned ↔ t.signed = true) := by
  have hd : (Update.withValue o ts).displayable = some (ItemKind.ofInt v t) := by
    rw [← DataDisplay.displayable_eq]; exact ((C71_observed ho.1).2 o ho).2.2.1
  have hlast : lastArrival e.clock Update.displayable
      (before ++ ⟨start, .input (.withValue o ts), out, stop⟩ :: after) = some (e.clock (stop - 1), ItemKind.ofInt v t) := by
    simp [lastArrival, arrivals_append, arrivals, hd, arrivals_nil _ _ hafter]
  have hs := C38_shown h h0 hput
  rw [hlast] at hs
  have hshow : displayShows x (some (e.clock (stop - 1), ItemKind.ofInt v t)) (e.clock k') = some (ItemKind.ofInt v t) := by
    unfold displayShows
    cases hr : x.resetAfter with
    | none => rfl
    | some r => simp only; rw [if_neg (by have := htime r hr; omega)]
  rw [hshow] at hs
  obtain ⟨h1, h2, _⟩ := C71_item ho.1
  exact ⟨_, hs, h1, h2⟩

/-- A gauge shows the integer last observed if it is an `i64`; if it is not, it is as if it had not been observed. -/
theorem C71_gauge {e : Env} {k k' k'' start stop : Nat} {g g' g'' : Gauge} {before after : List (Event Update)}
    {out : Out} {t : IntType} {v ts : Int} {o : ObservedValue}
    (h : History e k g (before ++ ⟨start, .input (.withValue o ts), out, stop⟩ :: after) k' g')
    (hg : ∀ v ∈ g.value, I64 v) (hin : ∀ u ∈ inputs before ++ inputs after, u.InRange) (ho : Observes v t o)
    (hafter : ∀ u ∈ inputs after, u.change g.displayTimeUnit = .nothing) {into s : Snapshot}
    (hput : g'.putSnapshot into false e k' = some ((g'', s), k'')) :
    (I64 v → ∃ stats, s = if g'.groupValues then into ++ [(g'.name, .snapshot (("current", .int v) :: stats))]
      else into ++ (g'.name, .int v) :: stats) ∧
    (¬ I64 v → g'.value =
      (gaugeShows g.value ((inputs before).map (Update.change g.displayTimeUnit)).reverse).map wrapI64) := by
  obtain ⟨hr, -, -, -, hc, -⟩ := (C71_observed ho.1).2 o ho
  have hval := C22_gauge_value h hg (by
    intro u hu
    simp only [inputs_append, inputs, List.mem_append, List.mem_cons] at hu
    rcases hu with hu | rfl | hu
    · exact hin u (List.mem_append_left _ hu)
    · exact hr
    · exact hin u (List.mem_append_right _ hu))
  have hnothing : ∀ (l : List Update) (init : Option Int) (older : List Change),
      (∀ u ∈ l, u.change g.displayTimeUnit = .nothing) →
      gaugeShows init ((l.map (Update.change g.displayTimeUnit)).reverse ++ older) = gaugeShows init older := by
    intro l
    induction l with
    | nil => intros; rfl
    | cons u l ih =>
      intro init older hl
      simp only [List.map_cons, List.reverse_cons, List.append_assoc, List.singleton_append]
      rw [ih _ _ fun u hu => hl u (List.mem_cons_of_mem _ hu), hl u List.mem_cons_self]; rfl
  have hchange : (Update.withValue o ts).change g.displayTimeUnit = if I64 v then .absolute v else .nothing := by
    have : (Update.withValue o ts).change g.displayTimeUnit = match o.convertToI64 with
        | some n => .absolute n
        | none => .nothing := by
      rw [ObservedValue.ofInt_eq ho]; cases t.signed <;> rfl
    rw [this, hc]; by_cases hv : I64 v <;> simp only [hv, if_true, if_false]
  simp only [inputs_append, inputs, List.map_append, List.map_cons, List.reverse_append, List.reverse_cons,
    List.append_assoc, List.singleton_append] at hval
  rw [hnothing _ _ _ hafter, hchange] at hval
  refine ⟨fun hv => ?_, fun hv => ?_⟩
  · rw [if_pos hv] at hval
    simp only [gaugeShows, Option.map_some, wrapI64_of_I64 hv] at hval
    obtain ⟨stats, hs, -⟩ := (C22_shown hput).2 v hval
    exact ⟨stats, hs⟩
  · rw [if_neg hv] at hval; exact hval

/-- A flag is on after an integer iff it is not zero. -/
theorem C71_flag {e : Env} {k k' k'' start stop : Nat} {f f' f'' : Flag} {before after : List (Event Update)}
    {out : Out} {t : IntType} {v ts : Int} {o : ObservedValue}
    (h : History e k f (before ++ ⟨start, .input (.withValue o ts), out, stop⟩ :: after) k' f') (ho : Observes v t o)
    (hafter : ∀ u ∈ inputs after, u.truth = none) {into s : Snapshot} {d : Bool}
    (hput : Component.putSnapshot f' into d e k' = some ((f'', s), k'')) :
    (f.name, .boolean (decide (v ≠ 0))) ∈ s := by
  have hb : (Update.withValue o ts).truth = some (decide (v ≠ 0)) := by
    have := ((C71_observed ho.1).2 o ho).2.2.2.2.2.2
    rw [← this, ObservedValue.ofInt_eq ho]
    cases t.signed <;> rfl
  have hl : ((inputs (before ++ ⟨start, .input (.withValue o ts), out, stop⟩ :: after)).filterMap Update.truth).getLast? =
      some (decide (v ≠ 0)) := by
    have : (inputs after).filterMap Update.truth = [] := List.filterMap_eq_nil_iff.mpr hafter
    rw [inputs_append, List.filterMap_append]
    simp only [inputs, List.filterMap_cons, hb, this]
    exact List.getLast?_append_cons ..
  have hs := C34_last_value h hput
  rw [hl] at hs
  rw [hs]
  exact List.mem_append_right _ List.mem_cons_self

/-- A meter and a histogram take an observed integer as this number if it is an `i64`, and ignore it otherwise. -/
theorem C71_metered {t : IntType} {v ts : Int} {o : ObservedValue} (ho : Observes v t o) (unit : TimeUnit) :
    (Update.withValue o ts).metered unit = if I64 v then some v else none := by
  have := ((C71_observed ho.1).2 o ho).2.2.2.2.1
  rw [← this, ObservedValue.ofInt_eq ho]
  cases t.signed <;> rfl

/-- A constant of an integer type is shown as this number, in the snapshot and in JSON. -/
theorem C71_constant {σ L : Type} [Custom σ L] {t : IntType} {v : Int} (h : t.Holds v) (name : String) (d : Bool)
    (into : Snapshot) (e : Env) (k : Nat) :
    ∃ (x' : Snapshooter σ L) (item : ItemKind), (ConstantValue.new name (ItemKind.ofInt v t)).toSnapshooter.putSnapshot d into e k =
      some ((x', into ++ [(name, item)]), k) ∧ item.number? = some v ∧
      (∀ b, (Snapshot.toJson b (into ++ [(name, item)])).get name = some (.num v)) := by
  obtain ⟨x', hx⟩ := C69_constant (σ := σ) (L := L) name (ItemKind.ofInt v t) [] into d e k
  refine ⟨x', ItemKind.ofInt v t, ?_, (C71_item h).1, fun b => ?_⟩
  · have ht : textsFor into name {} d = [] := by unfold textsFor; cases d <;> rfl
    have hx : _ = some ((x', into ++ textsFor into name {} d ++ [(name, ItemKind.ofInt v t)]), k) := hx
    rw [ht, List.append_nil] at hx
    exact hx
  · rw [(C43_last_wins b _).1 name _ ⟨into, [], rfl, by simp⟩, (C71_item h).2.2.2 b]

/-- Two items with their numbers. -/
example : (Snapshot.find [("a", ItemKind.ofInt 200 .u8)] "a") = .found (.uint 200) ∧
    ((ItemKind.ofInt (-7) .i32).toJson false) = .num (-7) := ⟨rfl, rfl⟩

/-- The values that the integer types of Rust have. -/
theorem C71_bounds (v : Int) :
    (IntType.u8.Holds v ↔ 0 ≤ v ∧ v ≤ 255) ∧ (IntType.u16.Holds v ↔ 0 ≤ v ∧ v ≤ 65535) ∧ (IntType.u32.Holds v ↔ 0 ≤ v ∧ v ≤ 4294967295) ∧
    (IntType.u64.Holds v ↔ 0 ≤ v ∧ v ≤ 18446744073709551615) ∧ (IntType.usize.Holds v ↔ 0 ≤ v ∧ v ≤ 18446744073709551615) ∧
    (IntType.i8.Holds v ↔ -128 ≤ v ∧ v ≤ 127) ∧ (IntType.i16.Holds v ↔ -32768 ≤ v ∧ v ≤ 32767) ∧
    (IntType.i32.Holds v ↔ -2147483648 ≤ v ∧ v ≤ 2147483647) ∧
    (IntType.i64.Holds v ↔ -9223372036854775808 ≤ v ∧ v ≤ 9223372036854775807) := by
  simp only [IntType.Holds, IntType.signed, IntType.bits]
  simp
  omega

/-- The types have their bounds. -/
example : IntType.i8.Holds (-128) ∧ ¬ IntType.i8.Holds 128 ∧ IntType.u64.Holds (2 ^ 64 - 1) ∧ ¬ IntType.u8.Holds (-1) := by
  decide

/-- A gauge that observes a `u8`, then an integer too large for it. -/
example : ∃ g', History (C := Gauge) (A := Update) ticking 0 { name := "g" }
    [⟨0, .input (.withValue (.unsignedInteger 200) 0), .updated 1, 0⟩,
     ⟨0, .input (.withValue (.unsignedInteger (2 ^ 63)) 0), .updated 1, 0⟩] 0 g' ∧ g'.value = some 200 ∧
    Observes 200 .u8 (.unsignedInteger 200) ∧ Observes (2 ^ 63) .usize (.unsignedInteger (2 ^ 63)) :=
  ⟨_, .cons (by decide) rfl (.cons (by decide) rfl (.nil (by decide))), rfl, by decide +kernel, by decide +kernel⟩

/-- A display and a flag that observe integers. -/
example : ∃ x', History (C := DataDisplay) (A := Update) ticking 1 ({ name := "d" } : DataDisplay)
    [⟨1, .input (.withValue (.signedInteger (-5)) 0), .updated 1, 1⟩, ⟨1, .input (.observation 0), .updated 0, 1⟩] 1 x' ∧
    (x'.putSnapshot [] false ticking 3).map (·.1) = some [("d", .int (-5))] ∧ Observes (-5) .i16 (.signedInteger (-5)) :=
  ⟨_, .cons (by decide) rfl (.cons (by decide) rfl (.nil (by decide))), rfl, by decide +kernel⟩

end Metrix
