import Verif.Spec.Snapshot
import Mathlib.Data.List.Nodup

namespace Metrix

theorem first_eq_some {s : Snapshot} {name : String} {v : ItemKind} :
    s.first name = some v ↔ FirstNamed s name v := by
  unfold Snapshot.first FirstNamed
  constructor
  · intro h
    obtain ⟨⟨n, w⟩, hf, rfl⟩ := Option.map_eq_some_iff.mp h
    obtain ⟨hn, before, after, hs, hb⟩ := List.find?_eq_some_iff_append.mp hf
    simp at hn; subst hn
    exact ⟨before, after, hs, fun x hx => by simpa using hb x hx⟩
  · rintro ⟨before, after, rfl, hb⟩
    have : List.find? (fun x : String × ItemKind => x.1 == name) (before ++ (name, v) :: after) = some (name, v) :=
      List.find?_eq_some_iff_append.mpr ⟨by simp, before, after, rfl, fun x hx => by simpa using hb x hx⟩
    simp [this]

theorem firstNamed_unique {s : Snapshot} {name : String} {v w : ItemKind} (h : FirstNamed s name v)
    (h' : FirstNamed s name w) : v = w := by
  rw [← first_eq_some] at h h'; rw [h] at h'; exact Option.some.inj h'

theorem follows_unique {s : Snapshot} {p : List String} {v w : ItemKind} (h : Follows s p v) (h' : Follows s p w) :
    v = w := by
  induction h with
  | value hf hn =>
    cases h' with
    | value hf' => exact firstNamed_unique hf hf'
    | group hf' => exact firstNamed_unique hf hf'
    | inside hf' => exact absurd (firstNamed_unique hf hf') (hn _)
  | group hf =>
    cases h' with
    | value hf' => exact firstNamed_unique hf hf'
    | group hf' => exact firstNamed_unique hf hf'
    | inside hf' h => cases h
  | inside hf h ih =>
    cases h' with
    | value hf' hn => exact absurd (firstNamed_unique hf' hf) (hn _)
    | group hf' => cases h
    | inside hf' h' =>
      cases firstNamed_unique hf hf'
      exact ih h'

theorem splitChars_append_sep {sep : Char} {seg cs : List Char} (h : sep ∉ seg) :
    splitChars sep (seg ++ sep :: cs) = seg :: splitChars sep cs := by
  induction seg with
  | nil => simp [splitChars]
  | cons c seg ih =>
    simp only [List.mem_cons, not_or] at h
    simp only [List.cons_append, splitChars, ih h.2]
    rw [if_neg (by exact fun h' => h.1 h'.symm)]

theorem splitChars_no_sep {sep : Char} {seg : List Char} (h : sep ∉ seg) : splitChars sep seg = [seg] := by
  induction seg with
  | nil => simp [splitChars]
  | cons c seg ih =>
    simp only [List.mem_cons, not_or] at h
    simp only [splitChars, ih h.2]
    rw [if_neg (by exact fun h' => h.1 h'.symm)]

theorem splitChars_append_ne {sep : Char} (a cs : List Char) :
    splitChars sep (a ++ sep :: cs) = splitChars sep a ++ splitChars sep cs := by
  induction a with
  | nil => simp [splitChars]
  | cons c a ih =>
    simp only [List.cons_append, splitChars]
    by_cases hc : c = sep
    · rw [if_pos hc, if_pos hc, ih]; rfl
    · rw [if_neg hc, if_neg hc, ih]
      cases hs : splitChars sep a with
      | nil =>
        exfalso
        cases a with
        | nil => simp [splitChars] at hs
        | cons x a =>
          simp only [splitChars] at hs
          split at hs
          · cases hs
          · split at hs <;> cases hs
      | cons p ps => rfl

/-- The segments the code takes are the segments of the path. -/
theorem pathSegments_eq_iff {path : String} {sep : Char} {segs : List String} :
    pathSegments path sep = segs ↔ SegmentsOf sep segs path.toList := by
  have ex : ∀ n (cs : List Char), cs.length ≤ n →
      SegmentsOf sep (((splitChars sep cs).filter (fun p => !p.isEmpty)).map String.ofList) cs := by
    intro n
    induction n with
    | zero =>
      intro cs h
      cases cs with
      | nil => exact .nil
      | cons => simp at h
    | succ n ih =>
      intro cs h
      by_cases hs : sep ∈ cs
      · obtain ⟨a, b, rfl, ha⟩ := List.eq_append_cons_of_mem hs
        rw [splitChars_append_sep ha]
        have hl : b.length ≤ n := by simp at h; omega
        cases a with
        | nil => exact .separator (ih b hl)
        | cons c a =>
          have := SegmentsOf.segment (sep := sep) (seg := String.ofList (c :: a)) (by simp) (by simpa using ha) (ih b hl)
          simpa using this
      · rw [splitChars_no_sep hs]
        cases cs with
        | nil => exact .nil
        | cons c cs =>
          have := SegmentsOf.last (sep := sep) (seg := String.ofList (c :: cs)) (by simp) (by simpa using hs)
          simpa using this
  have un : ∀ {segs cs}, SegmentsOf sep segs cs →
      ((splitChars sep cs).filter (fun p => !p.isEmpty)).map String.ofList = segs := by
    intro segs cs h
    induction h with
    | nil => simp [splitChars]
    | separator _ ih => simp [splitChars]; simpa using ih
    | last hne hns => rw [splitChars_no_sep hns]; simp [hne]
    | segment hne hns _ ih => rw [splitChars_append_sep hns]; simp [hne]; simpa using ih
  constructor
  · rintro rfl; exact ex _ _ (Nat.le_refl _)
  · exact un

theorem segmentsOf_ne_empty {sep : Char} {segs : List String} {cs : List Char} (h : SegmentsOf sep segs cs) :
    ∀ s ∈ segs, s.isEmpty = false := by
  induction h with
  | nil => simp
  | separator _ ih => exact ih
  | last hne => intro s hs; simp at hs; subst hs; simpa using hne
  | segment hne _ _ ih =>
    intro s hs
    rcases List.mem_cons.mp hs with rfl | hs
    · simpa using hne
    · exact ih s hs

/-- What the code's two loops compute, on segments. -/
def follow (s : Snapshot) : List String → FindItem
  | [] => .notFound
  | seg :: rest =>
    match Snapshot.first s seg with
    | some item => findItem item rest
    | none => .notFound

theorem findItem_snapshot {t : Snapshot} {p : List String} (hp : ∀ s ∈ p, s.isEmpty = false) (hne : p ≠ []) :
    findItem (.snapshot t) p = follow t p := by
  cases p with
  | nil => exact absurd rfl hne
  | cons seg rest =>
    have : seg.isEmpty = false := hp seg (by simp)
    simp only [findItem, this, Bool.false_eq_true, if_false, follow]
    cases t.first seg <;> rfl

theorem findItem_other {v : ItemKind} {p : List String} (hp : ∀ s ∈ p, s.isEmpty = false)
    (hv : ∀ t, v ≠ .snapshot t) : findItem v p = .found v := by
  cases p with
  | nil => rfl
  | cons seg rest =>
    have : seg.isEmpty = false := hp seg (by simp)
    simp only [findItem, this, Bool.false_eq_true, if_false]

theorem follow_eq_found {s : Snapshot} {p : List String} {v : ItemKind} (hp : ∀ s ∈ p, s.isEmpty = false) :
    follow s p = .found v ↔ Follows s p v := by
  induction p generalizing s v with
  | nil => simp only [follow]; exact ⟨fun h => (nomatch h), fun h => nomatch h⟩
  | cons seg rest ih =>
    have hrest : ∀ s ∈ rest, s.isEmpty = false := fun s hs => hp s (by simp [hs])
    simp only [follow]
    cases hf : s.first seg with
    | none =>
      have no : ∀ w, ¬ FirstNamed s seg w := fun w hw => by rw [first_eq_some.mpr hw] at hf; cases hf
      refine ⟨fun h => (nomatch h), fun h => ?_⟩
      cases h with
      | value hv => exact absurd hv (no _)
      | group hv => exact absurd hv (no _)
      | inside hv => exact absurd hv (no _)
    | some w =>
      have hw := first_eq_some.mp hf
      simp only
      by_cases hsn : ∃ t, w = .snapshot t
      · obtain ⟨t, rfl⟩ := hsn
        cases rest with
        | nil =>
          simp only [findItem]
          constructor
          · intro h; cases h; exact .group hw
          · intro h
            cases h with
            | value hv hn => exact absurd (firstNamed_unique hv hw) (hn t)
            | group hv => rw [firstNamed_unique hw hv]
            | inside _ h => cases h
        | cons r rs =>
          rw [findItem_snapshot hrest (by simp), ih hrest]
          constructor
          · exact .inside hw
          · intro h
            cases h with
            | value hv hn => exact absurd (firstNamed_unique hv hw) (hn t)
            | inside hv h => cases firstNamed_unique hv hw; exact h
      · have hn : ∀ t, w ≠ .snapshot t := fun t ht => hsn ⟨t, ht⟩
        rw [findItem_other hrest hn]
        constructor
        · intro h; cases h; exact .value hw hn
        · intro h
          cases h with
          | value hv => rw [firstNamed_unique hw hv]
          | group hv => exact absurd (firstNamed_unique hw hv) (hn _)
          | inside hv => exact absurd (firstNamed_unique hw hv) (hn _)

theorem findWithSeparator_eq {s : Snapshot} {path : String} {sep : Char} :
    s.findWithSeparator path sep = follow s (pathSegments path sep) := by
  unfold Snapshot.findWithSeparator follow
  cases pathSegments path sep <;> rfl

theorem firstNamed_of_unique {s : Snapshot} {name : String} {v : ItemKind} (hu : (s.map (·.1)).Nodup)
    (h : (name, v) ∈ s) : FirstNamed s name v := by
  obtain ⟨a, b, rfl⟩ := List.append_of_mem h
  refine ⟨a, b, rfl, fun x hx heq => ?_⟩
  rw [List.map_append, List.nodup_append] at hu
  exact hu.2.2 x.1 (List.mem_map_of_mem hx) name (by simp) heq

theorem follows_of_uniquelyAt {s : Snapshot} {p : List String} {v : ItemKind} (h : UniquelyAt s p v) :
    Follows s p v := by
  induction h with
  | @here s name v hu hm =>
    by_cases hsn : ∃ t, v = .snapshot t
    · obtain ⟨t, rfl⟩ := hsn; exact .group (firstNamed_of_unique hu hm)
    · exact .value (firstNamed_of_unique hu hm) fun t ht => hsn ⟨t, ht⟩
  | inside hu hm _ ih => exact .inside (firstNamed_of_unique hu hm) ih

/-- Splitting a path at a snapshot. -/
theorem follow_append {s t : Snapshot} {p q : List String} (hp : ∀ s ∈ p ++ q, s.isEmpty = false) (hq : q ≠ [])
    (h : follow s p = .found (.snapshot t)) : follow s (p ++ q) = follow t q := by
  induction p generalizing s with
  | nil => simp [follow] at h
  | cons seg rest ih =>
    have hrest : ∀ s ∈ rest ++ q, s.isEmpty = false := fun s hs => hp s (by simp at hs ⊢; tauto)
    simp only [follow, List.cons_append] at h ⊢
    cases hf : s.first seg with
    | none => rw [hf] at h; cases h
    | some w =>
      simp only [hf] at h ⊢
      cases rest with
      | nil =>
        simp only [findItem] at h; cases h
        exact findItem_snapshot hrest hq
      | cons r rs =>
        by_cases hsn : ∃ t, w = .snapshot t
        · obtain ⟨u, rfl⟩ := hsn
          rw [findItem_snapshot (fun s hs => hrest s (List.mem_append_left _ hs)) (by simp)] at h
          rw [findItem_snapshot hrest (by simp)]
          exact ih hrest h
        · have hn : ∀ t, w ≠ .snapshot t := fun t ht => hsn ⟨t, ht⟩
          rw [findItem_other (fun s hs => hrest s (List.mem_append_left _ hs)) hn] at h
          cases h; exact absurd rfl (hn t)

/-! ## JSON -/

theorem Json.assign_find (fields : List (String × Json)) (k k' : String) (v : Json) :
    ((Json.assign fields k v).find? fun f => f.1 == k').map (·.2) =
      if k' = k then some v else (fields.find? fun f => f.1 == k').map (·.2) := by
  induction fields with
  | nil =>
    simp only [Json.assign]
    by_cases h : k' = k
    · subst h; simp
    · simp [h, Ne.symm h]
  | cons f fs ih =>
    simp only [Json.assign]
    by_cases hf : f.1 = k
    · rw [if_pos hf]
      by_cases h : k' = k
      · subst h; simp
      · rw [if_neg h, List.find?_cons_of_neg (by simpa using Ne.symm h),
          List.find?_cons_of_neg (by rw [hf]; simpa using Ne.symm h)]
    · rw [if_neg hf]
      by_cases h' : f.1 = k'
      · have : k' ≠ k := fun h => hf (h'.trans h)
        rw [if_neg this, List.find?_cons_of_pos (by simpa using h'), List.find?_cons_of_pos (by simpa using h')]
      · rw [List.find?_cons_of_neg (by simpa using h'), List.find?_cons_of_neg (by simpa using h'), ih]

theorem Json.assign_keys (fields : List (String × Json)) (k : String) (v : Json) :
    (Json.assign fields k v).map (·.1) =
      if k ∈ fields.map (·.1) then fields.map (·.1) else fields.map (·.1) ++ [k] := by
  induction fields with
  | nil => simp [Json.assign]
  | cons f fs ih =>
    simp only [Json.assign]
    by_cases hf : f.1 = k
    · rw [if_pos hf]; simp [hf]
    · rw [if_neg hf, List.map_cons, ih]
      by_cases hm : k ∈ fs.map (·.1)
      · rw [if_pos hm, if_pos (by simp at hm ⊢; exact .inr hm)]; rfl
      · rw [if_neg hm, if_neg (by simp at hm ⊢; exact ⟨Ne.symm hf, hm⟩)]; rfl

theorem Json.assign_new (fields : List (String × Json)) (k : String) (v : Json) (h : k ∉ fields.map (·.1)) :
    Json.assign fields k v = fields ++ [(k, v)] := by
  induction fields with
  | nil => rfl
  | cons f fs ih =>
    simp only [List.map_cons, List.mem_cons, not_or] at h
    simp only [Json.assign]
    rw [if_neg (fun h' => h.1 h'.symm), ih h.2]; rfl

theorem toJsonFields_unique (b : Bool) (s : Snapshot) (acc : List (String × Json))
    (hu : (acc.map (·.1) ++ s.map (·.1)).Nodup) :
    Snapshot.toJsonFields b s acc = acc ++ s.map fun x => (x.1, x.2.toJson b) := by
  induction s generalizing acc with
  | nil => simp [Snapshot.toJsonFields]
  | cons x s ih =>
    obtain ⟨k, v⟩ := x
    simp only [Snapshot.toJsonFields]
    have hk : k ∉ acc.map (·.1) := by
      intro hk
      rw [List.nodup_append] at hu
      exact hu.2.2 k hk k (by simp) rfl
    rw [Json.assign_new _ _ _ hk, ih]
    · simp
    · simpa using hu

theorem toJsonFields_find (b : Bool) (s : Snapshot) (acc : List (String × Json)) (k : String) :
    ((Snapshot.toJsonFields b s acc).find? fun f => f.1 == k).map (·.2) =
      (((s.reverse.find? fun f => f.1 == k).map fun x => x.2.toJson b).or
        ((acc.find? fun f => f.1 == k).map (·.2))) := by
  induction s generalizing acc with
  | nil => simp [Snapshot.toJsonFields]
  | cons x s ih =>
    obtain ⟨n, v⟩ := x
    simp only [Snapshot.toJsonFields, ih, List.reverse_cons, List.find?_append]
    cases hf : s.reverse.find? fun f => f.1 == k with
    | some w => simp
    | none =>
      simp only [Option.map_none, Option.none_or]
      rw [Json.assign_find]
      by_cases h : k = n
      · subst h; simp
      · rw [if_neg h, List.find?_cons_of_neg (by simpa using Ne.symm h)]; simp

theorem toJsonFields_nodup (b : Bool) (s : Snapshot) (acc : List (String × Json)) (h : (acc.map (·.1)).Nodup) :
    ((Snapshot.toJsonFields b s acc).map (·.1)).Nodup := by
  induction s generalizing acc with
  | nil => simpa [Snapshot.toJsonFields] using h
  | cons x s ih =>
    simp only [Snapshot.toJsonFields]
    apply ih
    rw [Json.assign_keys]
    split
    · exact h
    · rename_i hm; rw [List.nodup_append]; refine ⟨h, by simp, ?_⟩
      intro a ha c hc; simp at hc; subst hc; rintro rfl; exact hm ha

theorem lastNamed_iff {s : Snapshot} {name : String} {v : ItemKind} :
    LastNamed s name v ↔ (s.reverse.find? fun x => x.1 == name).map (·.2) = some v := by
  constructor
  · rintro ⟨a, b, rfl, hb⟩
    have : List.find? (fun x : String × ItemKind => x.1 == name) ((a ++ (name, v) :: b).reverse) = some (name, v) :=
      List.find?_eq_some_iff_append.mpr ⟨by simp, b.reverse, a.reverse, by simp,
        fun x hx => by simpa using hb x (by simpa using hx)⟩
    rw [this]; rfl
  · intro h
    obtain ⟨⟨n, w⟩, hf, rfl⟩ := Option.map_eq_some_iff.mp h
    obtain ⟨hn, a, b, hs, hb⟩ := List.find?_eq_some_iff_append.mp hf
    simp at hn; subst hn
    refine ⟨b.reverse, a.reverse, ?_, fun x hx => by simpa using hb x (by simpa using hx)⟩
    rw [← List.reverse_reverse s, hs]; simp

end Metrix
