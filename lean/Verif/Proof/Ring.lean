import Verif.Spec.Ring

/-! The ring of buckets represents a function from seconds to contents. -/

namespace Metrix
variable {T : Type} [Inhabited T]

/-- The index `i` places behind `c` in a ring of `n`. -/
def back (n c i : Nat) : Nat := if i ≤ c then c - i else n + c - i

/-- `b` represents the contents `cont` and its current second is `s`. -/
structure Rep (n : Nat) (t0 : Int) (cont : Int → T) (s : Nat) (b : SecondsBuckets T) : Prop where
  length : b.buckets.length = n
  idx : b.currentIdx < n
  time : b.currentTime = t0 + (s : Int) * (nanosPerSec : Int)
  entries : ∀ i, i < n → b.buckets[back n b.currentIdx i]? = some (cont (s - i))
  future : ∀ s' : Int, s < s' → cont s' = default

theorem back_lt {n c i : Nat} (hc : c < n) (hi : i < n) : back n c i < n := by
  unfold back; split <;> omega

theorem back_inj {n c i j : Nat} (_  : c < n) (hi : i < n) (hj : j < n)
    (h : back n c i = back n c j) : i = j := by
  unfold back at h; split at h <;> split at h <;> omega

theorem back_zero (n c : Nat) : back n c 0 = c := by simp [back]

theorem Rep.advance {n : Nat} {t0 : Int} {cont : Int → T} {s : Nat} {b : SecondsBuckets T}
    (r : Rep n t0 cont s b) (e : Env) (k : Nat) :
    ∃ b', b.advance e k = some (b', k) ∧ b'.currentTime = b.currentTime ∧
      Rep n t0 cont (s + 1) { b' with currentTime := t0 + ((s + 1 : Nat) : Int) * (nanosPerSec : Int) } := by
  have hn : 0 < n := by have := r.idx; omega
  have hlen := r.length
  have hidx := r.idx
  have hmod : (b.currentIdx + 1) % b.buckets.length =
      if b.currentIdx + 1 = n then 0 else b.currentIdx + 1 := by
    rw [hlen]
    split
    · rename_i h; rw [h, Nat.mod_self]
    · exact Nat.mod_eq_of_lt (by omega)
  have hlt : (b.currentIdx + 1) % b.buckets.length < n := by rw [hlen]; exact Nat.mod_lt _ hn
  refine ⟨{ b with currentIdx := (b.currentIdx + 1) % b.buckets.length,
                   buckets := b.buckets.set ((b.currentIdx + 1) % b.buckets.length) default }, ?_, rfl, ?_⟩
  · simp only [SecondsBuckets.advance, SecondsBuckets.idx, assignAt]
    rw [if_neg (by omega), M.run_bind_some (M.run_pure _ _ _), if_pos (by omega),
      M.run_bind_some (M.run_pure _ _ _)]
    rfl
  · refine ⟨by simp [hlen], hlt, rfl, ?_, ?_⟩
    · intro i hi
      simp only
      rw [List.getElem?_set]
      split
      · rename_i heq
        rw [if_pos (by omega)]
        have : i = 0 := by
          exact (back_inj hlt hn hi (by rw [back_zero]; exact heq)).symm
        subst this
        rw [r.future]
        push_cast; omega
      · rename_i hne
        have hi0 : i ≠ 0 := by
          rintro rfl; exact hne (back_zero _ _).symm
        obtain ⟨j, rfl⟩ : ∃ j, i = j + 1 := ⟨i - 1, by omega⟩
        have hb : back n ((b.currentIdx + 1) % b.buckets.length) (j + 1) = back n b.currentIdx j := by
          rw [hmod]; unfold back
          repeat' split
          all_goals omega
        rw [hb, r.entries j (by omega)]
        congr 2; push_cast; omega
    · intro s' hs'
      exact r.future s' (by push_cast at hs'; omega)

theorem Rep.advanceN {n : Nat} {t0 : Int} {cont : Int → T} (d : Nat) {s : Nat} {b : SecondsBuckets T}
    (r : Rep n t0 cont s b) (e : Env) (k : Nat) :
    ∃ b', b.advanceN d e k = some (b', k) ∧ b'.currentTime = b.currentTime ∧
      Rep n t0 cont (s + d) { b' with currentTime := t0 + ((s + d : Nat) : Int) * (nanosPerSec : Int) } := by
  suffices ∀ (d s : Nat) (b : SecondsBuckets T),
      Rep n t0 cont s { b with currentTime := t0 + (s : Int) * (nanosPerSec : Int) } →
      ∃ b', b.advanceN d e k = some (b', k) ∧ b'.currentTime = b.currentTime ∧
        Rep n t0 cont (s + d) { b' with currentTime := t0 + ((s + d : Nat) : Int) * (nanosPerSec : Int) } by
    apply this
    rw [← r.time]; exact r
  intro d
  induction d with
  | zero => intro s b r; exact ⟨b, rfl, rfl, r⟩
  | succ d ih =>
    intro s b r
    obtain ⟨b₁, h₁, ht, r₁⟩ := r.advance e k
    have h₁' : ∃ b₂, b.advance e k = some (b₂, k) ∧ b₂.currentTime = b.currentTime ∧
        b₂.buckets = b₁.buckets ∧ b₂.currentIdx = b₁.currentIdx := by
      simp only [SecondsBuckets.advance, SecondsBuckets.idx, assignAt, M.bind_eq_some, M.run_pure] at h₁ ⊢
      obtain ⟨i, k₁, hi, bs, k₂, hbs, hb⟩ := h₁
      simp only [Option.some.injEq, Prod.mk.injEq] at hb
      obtain ⟨rfl, rfl⟩ := hb
      exact ⟨{ b with currentIdx := i, buckets := bs }, ⟨i, k₁, hi, bs, k₂, hbs, rfl⟩, rfl, rfl, rfl⟩
    obtain ⟨b₂, h₂, ht₂, hbs, hci⟩ := h₁'
    have r₂ : Rep n t0 cont (s + 1)
        { b₂ with currentTime := t0 + ((s + 1 : Nat) : Int) * (nanosPerSec : Int) } := by
      have : ({ b₂ with currentTime := t0 + ((s + 1 : Nat) : Int) * (nanosPerSec : Int) } : SecondsBuckets T)
          = { b₁ with currentTime := t0 + ((s + 1 : Nat) : Int) * (nanosPerSec : Int) } := by
        rw [hbs, hci]
      rw [this]; exact r₁
    obtain ⟨b₃, h₃, ht₃, r₃⟩ := ih (s + 1) b₂ r₂
    refine ⟨b₃, ?_, by rw [ht₃, ht₂], ?_⟩
    · simp only [SecondsBuckets.advanceN]
      rw [M.run_bind_some h₂]; exact h₃
    · have : s + (d + 1) = s + 1 + d := by omega
      rw [this]; exact r₃

/-- The second the ring is at after it was ticked at time `t`. -/
def tickedTo (t0 : Int) (s : Nat) (t : Int) : Nat :=
  s + sinceNs t (t0 + (s : Int) * (nanosPerSec : Int)) / nanosPerSec

/-- With a clock that did not go backwards this is the second `t` lies in. -/
theorem tickedTo_eq {t0 t : Int} {s : Nat} (h : t0 + (s : Int) * (nanosPerSec : Int) ≤ t) :
    (tickedTo t0 s t : Int) = secondOf t0 t := by
  unfold tickedTo secondOf sinceNs nanosPerSec at *
  omega

theorem tickedTo_le {t0 t : Int} {s : Nat} (h : t0 + (s : Int) * (nanosPerSec : Int) ≤ t) :
    t0 + (tickedTo t0 s t : Int) * (nanosPerSec : Int) ≤ t := by
  unfold tickedTo sinceNs nanosPerSec at *
  omega

theorem Rep.tick {n : Nat} {t0 : Int} {cont : Int → T} {s : Nat} {b : SecondsBuckets T}
    (r : Rep n t0 cont s b) (e : Env) (k : Nat) :
    ∃ b', b.tick e k = some (b', k + 1) ∧ Rep n t0 cont (tickedTo t0 s (e.clock k)) b' := by
  have hn : 0 < n := by have := r.idx; omega
  simp only [SecondsBuckets.tick]
  rw [M.run_bind_some (M.run_now _ _)]
  unfold tickedTo
  rw [← r.time]
  generalize hd : sinceNs (e.clock k) b.currentTime / nanosPerSec = d
  by_cases h0 : d = 0
  · rw [if_pos h0]; subst h0; exact ⟨b, rfl, r⟩
  rw [if_neg h0]
  have htime : b.currentTime + ((d * nanosPerSec : Nat) : Int) =
      t0 + ((s + d : Nat) : Int) * (nanosPerSec : Int) := by
    rw [r.time]; push_cast; ring
  have same : ∀ b' : SecondsBuckets T,
      b'.currentTime = b.currentTime + ((d * nanosPerSec : Nat) : Int) →
      Rep n t0 cont (s + d) { b' with currentTime := t0 + ((s + d : Nat) : Int) * (nanosPerSec : Int) } →
      Rep n t0 cont (s + d) b' := by
    intro b' hb' r'
    rw [← htime, ← hb'] at r'
    exact r'
  have hstart : ∀ m : Nat, ∃ b', ({ b with currentTime := b.currentTime + ((d * nanosPerSec : Nat) : Int) } :
      SecondsBuckets T).advanceN m e (k + 1) = some (b', k + 1) ∧
      b'.currentTime = b.currentTime + ((d * nanosPerSec : Nat) : Int) ∧
      Rep n t0 cont (s + m) { b' with currentTime := t0 + ((s + m : Nat) : Int) * (nanosPerSec : Int) } := by
    intro m
    have key : ∀ (m : Nat) (c c' : SecondsBuckets T) (x : Int), c.buckets = c'.buckets →
        c.currentIdx = c'.currentIdx → c'.currentTime = x →
        ∀ r k₁, c.advanceN m e k₁ = some r → ∃ b'', c'.advanceN m e k₁ = some (b'', r.2) ∧
          b''.buckets = r.1.buckets ∧ b''.currentIdx = r.1.currentIdx ∧ b''.currentTime = x := by
      intro m
      induction m with
      | zero =>
        intro c c' x hb hi hx r k₁ h
        simp [SecondsBuckets.advanceN] at h
        subst h
        exact ⟨c', rfl, hb.symm, hi.symm, hx⟩
      | succ m ih =>
        intro c c' x hb hi hx r k₁ h
        simp only [SecondsBuckets.advanceN] at h ⊢
        rw [M.bind_eq_some] at h
        obtain ⟨a, k₂, ha, h⟩ := h
        simp only [SecondsBuckets.advance, SecondsBuckets.idx, M.bind_eq_some, M.run_pure, Option.some.injEq,
          Prod.mk.injEq] at ha
        obtain ⟨i, k₃, h3, bs, k₄, h4, rfl, rfl⟩ := ha
        rw [hb, hi] at h3
        rw [hb] at h4
        have : c'.advance e k₁ = some ({ c' with currentIdx := i, buckets := bs }, k₄) := by
          simp only [SecondsBuckets.advance, SecondsBuckets.idx, M.bind_eq_some, M.run_pure]
          exact ⟨i, k₃, h3, bs, k₄, h4, rfl⟩
        rw [M.run_bind_some this]
        exact ih { c with currentIdx := i, buckets := bs } { c' with currentIdx := i, buckets := bs } x rfl rfl hx _ _ h
    obtain ⟨b₁, h₁, ht₁, r₁⟩ := r.advanceN m e (k + 1)
    obtain ⟨b₂, h₂, hb₂, hi₂, ht₂⟩ := key m b
      { b with currentTime := b.currentTime + ((d * nanosPerSec : Nat) : Int) } _ rfl rfl rfl _ _ h₁
    refine ⟨b₂, h₂, ht₂, ?_⟩
    have : ({ b₂ with currentTime := t0 + ((s + m : Nat) : Int) * (nanosPerSec : Int) } : SecondsBuckets T)
        = { b₁ with currentTime := t0 + ((s + m : Nat) : Int) * (nanosPerSec : Int) } := by
      rw [hb₂, hi₂]
    rw [this]; exact r₁
  by_cases h1 : d = 1
  · rw [if_pos h1]
    obtain ⟨b', hb', ht', r'⟩ := hstart 1
    simp only [SecondsBuckets.advanceN] at hb'
    rw [bind_pure] at hb'
    exact ⟨b', hb', same b' ht' (h1 ▸ r')⟩
  rw [if_neg h1]
  by_cases h2 : d < b.buckets.length
  · rw [if_pos h2]
    obtain ⟨b', hb', ht', r'⟩ := hstart d
    exact ⟨b', hb', same b' ht' r'⟩
  · rw [if_neg h2]
    refine ⟨_, rfl, ?_, hn, htime, ?_, ?_⟩
    · simp [r.length]
    · intro i hi
      simp only
      rw [List.getElem?_map, List.getElem?_eq_getElem (by rw [r.length]; exact back_lt hn hi)]
      rw [Option.map_some, r.future]
      have := r.length
      push_cast; omega
    · intro s' hs'; exact r.future s' (by push_cast at hs'; omega)

theorem Rep.modifyCurrent {n : Nat} {t0 : Int} {cont : Int → T} {s : Nat} {b : SecondsBuckets T}
    (r : Rep n t0 cont s b) (f : T → M T) (e : Env) (k : Nat) :
    (b.modifyCurrent f e k = none ↔ f (cont (tickedTo t0 s (e.clock k))) e (k + 1) = none) ∧
    ∀ b' k', b.modifyCurrent f e k = some (b', k') →
      ∃ y, f (cont (tickedTo t0 s (e.clock k))) e (k + 1) = some (y, k') ∧
        Rep n t0 (Function.update cont (tickedTo t0 s (e.clock k)) y) (tickedTo t0 s (e.clock k)) b' := by
  obtain ⟨b₁, h₁, r₁⟩ := r.tick e k
  have hn : 0 < n := by have := r.idx; omega
  have hcur : b₁.buckets[b₁.currentIdx]? = some (cont (tickedTo t0 s (e.clock k))) := by
    have := r₁.entries 0 hn
    rw [back_zero] at this
    simpa using this
  have hidx : index b₁.buckets b₁.currentIdx e (k + 1) = some (cont (tickedTo t0 s (e.clock k)), k + 1) := by
    unfold index; rw [hcur]; rfl
  have hrun : b.modifyCurrent f e k = (match f (cont (tickedTo t0 s (e.clock k))) e (k + 1) with
      | none => none
      | some (y, k') => some ({ b₁ with buckets := b₁.buckets.set b₁.currentIdx y }, k')) := by
    simp only [SecondsBuckets.modifyCurrent]
    rw [M.run_bind_some h₁, M.run_bind_some hidx, M.run_bind]
    cases f (cont (tickedTo t0 s (e.clock k))) e (k + 1) with
    | none => rfl
    | some p =>
      simp only [assignAt]
      rw [if_pos (by rw [r₁.length]; exact r₁.idx)]
      rfl
  rw [hrun]
  cases hf : f (cont (tickedTo t0 s (e.clock k))) e (k + 1) with
  | none => simp
  | some p =>
    obtain ⟨y, k₁⟩ := p
    refine ⟨by simp, ?_⟩
    rintro b' k' h
    simp only [Option.some.injEq, Prod.mk.injEq] at h
    obtain ⟨rfl, rfl⟩ := h
    refine ⟨y, rfl, by simp [r₁.length], r₁.idx, r₁.time, ?_, ?_⟩
    · intro i hi
      simp only
      rw [List.getElem?_set]
      split
      · rename_i heq
        have : i = 0 := (back_inj r₁.idx hn hi (by rw [back_zero]; exact heq)).symm
        subst this
        rw [if_pos (by rw [r₁.length]; exact r₁.idx)]
        simp
      · rename_i hne
        have : i ≠ 0 := by rintro rfl; exact hne (back_zero _ _).symm
        rw [r₁.entries i hi, Function.update_of_ne (by omega)]
    · intro s' hs'
      rw [Function.update_of_ne (by omega)]; exact r₁.future s' hs'

omit [Inhabited T] in
theorem iterFrom_eq {n : Nat} {cont : Int → T} {bs : List T} {s : Int} (hlen : bs.length = n) {c : Nat}
    (hc : c < n) (hent : ∀ i, i < n → bs[back n c i]? = some (cont (s - i))) (e : Env) (k : Nat) :
    ∀ m j, m + j = n → SecondsBuckets.iterFrom bs m (back n c (if j = n then 0 else j)) e k =
      some ((List.range' j m).map fun i : Nat => cont (s - i), k) := by
  intro m
  induction m with
  | zero => intro j _; rfl
  | succ m ih =>
    intro j hj
    rw [if_neg (by omega)]
    simp only [SecondsBuckets.iterFrom]
    have hx : index bs (back n c j) e k = some (cont (s - j), k) := by
      unfold index; rw [hent j (by omega)]; rfl
    rw [M.run_bind_some hx]
    have hnext : (if back n c j = 0 then bs.length - 1 else back n c j - 1) =
        back n c (if j + 1 = n then 0 else j + 1) ∨ m = 0 := by
      by_cases hm : m = 0
      · exact .inr hm
      · left
        rw [if_neg (show ¬ j + 1 = n by omega), hlen]; unfold back
        repeat' split
        all_goals omega
    rcases hnext with hnext | hm
    · rw [hnext, M.run_bind_some (ih (j + 1) (by omega))]
      simp [List.range'_succ]
    · subst hm
      simp only [SecondsBuckets.iterFrom]
      rw [M.run_bind_some (M.run_pure _ _ _)]
      simp

theorem Rep.iter {n : Nat} {t0 : Int} {cont : Int → T} {s : Nat} {b : SecondsBuckets T}
    (r : Rep n t0 cont s b) (e : Env) (k : Nat) :
    ∃ b', b.iter e k = some ((b', (windowSeconds n (tickedTo t0 s (e.clock k))).map cont), k + 1) ∧
      Rep n t0 cont (tickedTo t0 s (e.clock k)) b' := by
  obtain ⟨b₁, h₁, r₁⟩ := r.tick e k
  have hn : 0 < n := by have := r.idx; omega
  refine ⟨b₁, ?_, r₁⟩
  simp only [SecondsBuckets.iter]
  rw [M.run_bind_some h₁]
  have := iterFrom_eq r₁.length r₁.idx r₁.entries e (k + 1) n 0 (by omega)
  rw [if_neg (by omega), back_zero] at this
  rw [r₁.length, M.run_bind_some this]
  simp [windowSeconds, List.range_eq_range', Function.comp_def]

theorem Rep.getAt {n : Nat} {t0 : Int} {cont : Int → T} {s : Nat} {b : SecondsBuckets T}
    (r : Rep n t0 cont s b) (t : Int) (e : Env) (k : Nat) :
    ∃ b', Rep n t0 cont (tickedTo t0 s (e.clock k)) b' ∧
      b.getAt t e k = some ((b',
        if t > b'.currentTime then none
        else if sinceNs b'.currentTime t / nanosPerSec ≥ n then none
        else some (back n b'.currentIdx (sinceNs b'.currentTime t / nanosPerSec))), k + 1) := by
  obtain ⟨b₁, h₁, r₁⟩ := r.tick e k
  have hn : 0 < n := by have := r.idx; omega
  refine ⟨b₁, r₁, ?_⟩
  simp only [SecondsBuckets.getAt]
  rw [M.run_bind_some h₁, r₁.length]
  split
  · rfl
  split
  · rfl
  · simp only [SecondsBuckets.idx]
    rw [if_neg (by rw [r₁.length]; omega), M.run_bind_some (M.run_pure _ _ _), r₁.length]
    have hi := r₁.idx
    have : (n + b₁.currentIdx - sinceNs b₁.currentTime t / nanosPerSec) % n =
        back n b₁.currentIdx (sinceNs b₁.currentTime t / nanosPerSec) := by
      generalize sinceNs b₁.currentTime t / nanosPerSec = d at *
      unfold back
      split
      · rw [show n + b₁.currentIdx - d = n + (b₁.currentIdx - d) by omega, Nat.add_mod_left,
          Nat.mod_eq_of_lt (by omega)]
      · exact Nat.mod_eq_of_lt (by omega)
    rw [this]; rfl

/-- Writing at an index that represents a second within the window. -/
theorem Rep.set {n : Nat} {t0 : Int} {cont : Int → T} {s d : Nat} {b : SecondsBuckets T}
    (r : Rep n t0 cont s b) (hd : d < n) (y : T) :
    Rep n t0 (Function.update cont (s - d) y) s
      { b with buckets := b.buckets.set (back n b.currentIdx d) y } := by
  refine ⟨by simp [r.length], r.idx, r.time, ?_, ?_⟩
  · intro i hi
    simp only
    rw [List.getElem?_set]
    split
    · rename_i heq
      have : d = i := back_inj r.idx hd hi heq
      subst this
      rw [if_pos (by rw [r.length]; exact back_lt r.idx hd)]
      simp
    · rename_i hne
      have : d ≠ i := by rintro rfl; exact hne rfl
      rw [r.entries i hi, Function.update_of_ne (by omega)]
  · intro s' hs'
    rw [Function.update_of_ne (by omega)]; exact r.future s' hs'

theorem Rep.new {n : Nat} (hn : 0 < n) (e : Env) (k : Nat) :
    ∃ b : SecondsBuckets T, SecondsBuckets.new n e k = some (b, k + 1) ∧
      Rep n (e.clock k) (fun _ => default) 0 b := by
  refine ⟨⟨List.replicate n default, e.clock k, n - 1⟩, ?_, by simp, by simp; omega, by simp, ?_, fun _ _ => rfl⟩
  · simp only [SecondsBuckets.new, SecondsBuckets.initialized]
    rw [if_neg (by simp; omega), M.run_bind_some (M.run_now _ _)]
    simp
  · intro i hi
    rw [List.getElem?_replicate, if_pos (back_lt (by simp; omega) hi)]

/-- What a ring represents after a history. The ring was last used at a time when the clock had been
read at most `k` times. -/
theorem RingHistory.rep {e : Env} (mono : e.Mono) {t0 : Int} {n k k' : Nat} {b b' : SecondsBuckets T}
    {log : List (Write T)} (h : RingHistory e t0 k b log k' b') :
    ∀ {s : Nat} {cont : Int → T}, Rep n t0 cont s b → (∀ j, k ≤ j → b.currentTime ≤ e.clock j) →
      ∃ s', Rep n t0 (fun sec => contentOf (cont sec) sec log) s' b' ∧
        ∀ j, k' ≤ j → b'.currentTime ≤ e.clock j := by
  have after : ∀ {s : Nat} {k₁ : Nat} {cont cont' : Int → T} {b b₁ : SecondsBuckets T}, Rep n t0 cont s b →
      (∀ j, k₁ ≤ j → b.currentTime ≤ e.clock j) →
      Rep n t0 cont' (tickedTo t0 s (e.clock k₁)) b₁ → ∀ j, k₁ ≤ j → b₁.currentTime ≤ e.clock j := by
    intro s k₁ cont cont' b b₁ r hk r₁ j hj
    rw [r₁.time]
    refine le_trans (tickedTo_le ?_) (mono _ _ hj)
    rw [← r.time]; exact hk k₁ le_rfl
  induction h with
  | nil hk => intro s cont r ht; exact ⟨s, r, fun j hj => ht j (by omega)⟩
  | @write k k₁ k₂ k' b b₁ b' f log hk hw _ ih =>
    intro s cont r ht
    obtain ⟨y, hy, r₁⟩ := (r.modifyCurrent _ e k₁).2 _ _ hw
    simp only [M.run_pure, Option.some.injEq, Prod.mk.injEq] at hy
    obtain ⟨rfl, rfl⟩ := hy
    have ht₁ := after r (fun j hj => ht j (by omega)) r₁
    obtain ⟨s', r', ht'⟩ := ih r₁ (fun j hj => ht₁ j (by omega))
    refine ⟨s', ?_, ht'⟩
    have hs := tickedTo_eq (t0 := t0) (s := s) (t := e.clock k₁) (by rw [← r.time]; exact ht k₁ hk)
    convert r' using 2 with sec
    simp only [contentOf]
    rw [← hs]
    congr 1
    by_cases hsec : (tickedTo t0 s (e.clock k₁) : Int) = sec
    · subst hsec; simp
    · rw [if_neg hsec, Function.update_of_ne (Ne.symm hsec)]
  | @read k k₁ k₂ k' b b₁ b' xs log hk hw _ ih =>
    intro s cont r ht
    obtain ⟨b₂, h₂, r₂⟩ := r.iter e k₁
    rw [h₂] at hw
    simp only [Option.some.injEq, Prod.mk.injEq] at hw
    obtain ⟨⟨rfl, _⟩, rfl⟩ := hw
    have ht₁ := after r (fun j hj => ht j (by omega)) r₂
    exact ih r₂ (fun j hj => ht₁ j (by omega))
  | @missedPast k k₁ k₂ k' b b₁ b' t log hk hw _ ih =>
    intro s cont r ht
    obtain ⟨b₂, r₂, h₂⟩ := r.getAt t e k₁
    rw [h₂] at hw
    simp only [Option.some.injEq, Prod.mk.injEq] at hw
    obtain ⟨⟨rfl, _⟩, rfl⟩ := hw
    have ht₁ := after r (fun j hj => ht j (by omega)) r₂
    exact ih r₂ (fun j hj => ht₁ j (by omega))
  | @writePast k k₁ k₂ k' i b b₁ b' t x f log hk hw hx _ ih =>
    intro s cont r ht
    obtain ⟨b₂, r₂, h₂⟩ := r.getAt t e k₁
    rw [h₂] at hw
    simp only [Option.some.injEq, Prod.mk.injEq] at hw
    obtain ⟨⟨rfl, hi⟩, rfl⟩ := hw
    have ht₁ := after r (fun j hj => ht j (by omega)) r₂
    split at hi
    · cases hi
    rename_i hle
    split at hi
    · cases hi
    rename_i hd
    simp only [Option.some.injEq] at hi
    subst hi
    have hd' : sinceNs b₂.currentTime t / nanosPerSec < n := by omega
    rw [r₂.entries _ hd'] at hx
    simp only [Option.some.injEq] at hx
    subst hx
    have r₃ := r₂.set hd' (f (cont (tickedTo t0 s (e.clock k₁) - (sinceNs b₂.currentTime t / nanosPerSec : Nat))))
    obtain ⟨s', r', ht'⟩ := ih r₃ (fun j hj => ht₁ j (by omega))
    refine ⟨s', ?_, ht'⟩
    have hs : (tickedTo t0 s (e.clock k₁) : Int) - (sinceNs b₂.currentTime t / nanosPerSec : Nat) =
        nextSecondOf t0 t := by
      have := r₂.time
      unfold nextSecondOf sinceNs nanosPerSec at *
      omega
    convert r' using 2 with sec
    simp only [contentOf]
    rw [hs]
    congr 1
    by_cases hsec : nextSecondOf t0 t = sec
    · subst hsec; simp
    · rw [if_neg hsec, Function.update_of_ne (Ne.symm hsec)]

end Metrix
