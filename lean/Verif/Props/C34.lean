import Verif.Proof.Switches
import Verif.Props.C25

/-! # C34: a flag shows the last boolean-like value -/

namespace Metrix

theorem Flag.history {e : Env} {k k' : Nat} {f f' : Flag} {log : List (Event Update)} (h : History e k f log k' f') :
    f' = { f with state := ((inputs log).filterMap Update.truth).getLast?.or f.state } := by
  induction h with
  | nil => rfl
  | @cons k k₁ k₂ k' f f₁ f' op out log h1 hs hr ih =>
    cases op with
    | snapshot s d =>
      obtain ⟨_, _, hu⟩ := step_snapshot_eq_some.mp hs
      obtain ⟨rfl, _⟩ := keeping_eq_some.mp hu
      exact ih
    | input u =>
      obtain ⟨n, _, hu⟩ := step_input_eq_some.mp hs
      change (pure (f.update u) : M _) e k₁ = _ at hu
      simp at hu
      obtain ⟨hu, rfl⟩ := hu
      have : f₁ = { f with state := u.truth.or f.state } := by
        have h1 : f₁ = (f.update u).1 := by rw [hu]
        rw [h1]
        cases u with
        | withValue v t => cases v <;> rfl
        | _ => rfl
      rw [ih, this]
      simp only [inputs]
      cases ht : u.truth with
      | none => rw [List.filterMap_cons_none ht]; rfl
      | some b =>
        rw [List.filterMap_cons_some ht, List.getLast?_cons]
        cases ((inputs log).filterMap Update.truth).getLast? <;> rfl

/-- The flag shows the last truth value observed, its initial state before the first one, nothing if it has none. -/
theorem C34_last_value {e : Env} {k k' k'' : Nat} {f f' f'' : Flag} {log : List (Event Update)}
    (h : History e k f log k' f') {into s : Snapshot} {d : Bool}
    (hput : Component.putSnapshot f' into d e k' = some ((f'', s), k'')) :
    s = putPostfixedDescriptives f.descr f.name into d ++
      match ((inputs log).filterMap Update.truth).getLast?.or f.state with
      | none => []
      | some b => (f.name, .boolean b) :: match f.showInverted with
        | none => []
        | some alt => [(alt.adjustName f.name, .boolean !b)] := by
  obtain ⟨_, hput⟩ := keeping_eq_some.mp hput
  simp at hput
  obtain ⟨rfl, rfl⟩ := hput
  rw [Flag.history h]
  unfold Flag.putSnapshot
  simp only
  cases ((inputs log).filterMap Update.truth).getLast?.or f.state with
  | none => simp
  | some b => cases f.showInverted <;> simp [Snapshot.push]

/-- An update is reported as one iff it has a truth value; all others change nothing. -/
theorem C34_reports (f : Flag) (u : Update) :
    (f.update u).2 = (if u.truth.isSome then 1 else 0) ∧ (u.truth = none → (f.update u).1 = f) := by
  cases u with
  | withValue v t => cases v <;> simp [Flag.update, Update.truth]
  | _ => simp [Flag.update, Update.truth]

example : ∃ f', History (C := Flag) (A := Update) ticking 0 { name := "f", showInverted := some (.post "_off") }
    [⟨0, .input (.withValue (.unsignedInteger 3) 0), .updated 1, 0⟩,
     ⟨0, .input (.withValue (.float (.fin 0)) 0), .updated 0, 0⟩,
     ⟨0, .input (.observation 0), .updated 0, 0⟩] 0 f' ∧
    f'.putSnapshot [] false = [("f", .boolean true), ("f_off", .boolean false)] :=
  ⟨_, .cons (by decide) rfl (.cons (by decide) rfl (.cons (by decide) rfl (.nil (by decide)))), by rfl⟩

example := C34_last_value (played_history (e := ticking) (k := 0) (c := ({ name := "f", showInverted := some (.post "_off") } : Flag))
  (ops := [.input (.withValue (.unsignedInteger 3) 0), .snapshot [] true, .input (.withValue (.bool false) 0), .input (.observation 0)]) rfl)
  (into := []) (d := true) rfl
example := (C34_reports { name := "f" } (.observation 0)).2 rfl

end Metrix
