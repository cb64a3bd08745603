import Verif.Spec.Building
import Verif.Props.C15
import Verif.Props.C20
import Verif.Props.C45
import Verif.Props.C52
import Verif.Props.C63
import Verif.Props.C64
import Verif.Props.C68

/-!
# C69: What is built is what the steps of its construction say

Panels, cockpits, processors, mounts, polled values and drivers: of each setting the last one counts, everything that was
added is there, and no setting touches what was added.
-/

namespace Metrix
variable {σ L : Type}

theorem latestName_cons (t : TextSetting) (ts : List TextSetting) (n : Option String) (d : Descr) :
    latestName (t :: ts) n = latestName ts (t.applyOptional n d).1 := by
  cases t <;> simp [latestName, lastSet_cons, TextSetting.applyOptional, TextSetting.name?, Option.or_assoc]

theorem latestDescr_cons_optional (t : TextSetting) (ts : List TextSetting) (n : Option String) (d : Descr) :
    latestDescr (t :: ts) d = latestDescr ts (t.applyOptional n d).2 := by
  cases t <;> simp [latestDescr, lastSet_cons, TextSetting.applyOptional, TextSetting.title?, TextSetting.description?,
    Option.or_assoc]

/-- What one setting does. -/
def Activity.with_ (a : Activity) : ActivitySetting → Activity
  | .inactivityLimit d => { a with maxInactivity := some d }
  | .showActivityState b => { a with show_ := b }

theorem latestActivity_cons (s : ActivitySetting) (ss : List ActivitySetting) (a : Activity) :
    latestActivity (s :: ss) a = latestActivity ss (a.with_ s) := by
  cases s <;> simp [latestActivity, lastSet_cons, latest_cons, Activity.with_, ActivitySetting.limit?, ActivitySetting.show?,
    Option.or_assoc]

theorem withAll_cons {I S : Type} (f : I → S → I) (i : I) (x : S) (xs : List S) :
    withAll f i (x :: xs) = withAll f (f i x) xs := rfl

/-! ## Panels -/

theorem exhibitsOfHandlers_append (a b : List (Handler σ L)) :
    exhibitsOfHandlers (a ++ b) = exhibitsOfHandlers a ++ exhibitsOfHandlers b := by
  induction a with
  | nil => rfl
  | cons x a ih => simp [exhibitsOfHandlers, ih]

theorem exhibitsOfPanels_append (a b : List (Panel σ L)) :
    exhibitsOfPanels (a ++ b) = exhibitsOfPanels a ++ exhibitsOfPanels b := by
  induction a with
  | nil => rfl
  | cons x a ih => simp [exhibitsOfPanels, ih]

theorem exhibitsOfSnapshooters_append (a b : List (Snapshooter σ L)) :
    exhibitsOfSnapshooters (a ++ b) = exhibitsOfSnapshooters a ++ exhibitsOfSnapshooters b := by
  induction a with
  | nil => rfl
  | cons x a ih => simp [exhibitsOfSnapshooters, ih]

theorem Panel.addHandler_contents (p : Panel σ L) (x : Handler σ L) :
    (p.addHandler x).contents.Perm (p.contents ++ x.exhibits) := by
  cases p with
  | mk h ps hs ss =>
    simp only [Panel.addHandler, Panel.contents, exhibitsOfHandlers_append, exhibitsOfHandlers, List.append_nil, List.append_assoc]
    exact .refl _

/-- What one step does to a panel. -/
structure PanelStep.Did (x : PanelStep σ L) (p p' : Panel σ L) : Prop where
  name : p'.head.name = latestName x.text?.toList p.head.name
  descr : p'.head.descr = latestDescr x.text?.toList p.head.descr
  activity : p'.head.activity = latestActivity x.activity?.toList p.head.activity
  filter : p'.head.labelFilter = p.head.labelFilter
  leaves : p'.leaves.Perm (p.leaves ++ behind p.head.labelFilter x.leaves)
  contents : p'.contents.Perm (p.contents ++ x.exhibits)

theorem Panel.did_of_gains {x : PanelStep σ L} {p p' : Panel σ L} (hg : Gains p p' x.leaves) (ht : x.text? = none)
    (ha : x.activity? = none) (hname : p'.head.name = p.head.name) (hdescr : p'.head.descr = p.head.descr)
    (hact : p'.head.activity = p.head.activity) (hc : p'.contents.Perm (p.contents ++ x.exhibits)) : x.Did p p' where
  name := by rw [ht, hname]; rfl
  descr := by rw [ht, hdescr]; rfl
  activity := by rw [ha, hact]; rfl
  filter := hg.2
  leaves := hg.1.trans List.perm_append_comm
  contents := hc

theorem Panel.with_did (p : Panel σ L) (x : PanelStep σ L) : x.Did p (p.with_ x) := by
  cases p with
  | mk h ps hs ss =>
  cases x with
  | text t =>
    have ht : (Panel.mk h ps hs ss).with_ (.text t) =
        .mk { h with name := (t.applyOptional h.name h.descr).1, descr := (t.applyOptional h.name h.descr).2 } ps hs ss := by
      cases t <;> rfl
    rw [ht]
    exact
      { name := (latestName_cons t [] h.name h.descr).symm
        descr := (latestDescr_cons_optional t [] h.name h.descr).symm
        activity := rfl
        filter := rfl
        leaves := by simp only [PanelStep.leaves, behind, List.map_nil, List.append_nil]; exact .refl _
        contents := by simp only [PanelStep.exhibits, List.append_nil]; exact .refl _ }
  | activity s =>
    have hs : (Panel.mk h ps hs ss).with_ (.activity s) = .mk { h with activity := h.activity.with_ s } ps hs ss := by
      cases s <;> rfl
    rw [hs]
    exact
      { name := rfl
        descr := rfl
        activity := (latestActivity_cons s [] h.activity).symm
        filter := rfl
        leaves := by simp only [PanelStep.leaves, behind, List.map_nil, List.append_nil]; exact .refl _
        contents := by simp only [PanelStep.exhibits, List.append_nil]; exact .refl _ }
  | counter a =>
    have hg := C20_add_counter (.mk h ps hs ss) a
    simp only [Panel.with_]
    rcases hn : h.counter with _ | b
    · refine Panel.did_of_gains hg rfl rfl ?_ ?_ ?_ ?_ <;> simp only [Panel.addCounter, hn, Option.isNone_none, if_true] <;>
        try rfl
      simp only [Panel.contents, PanelHead.exhibits, hn, PanelStep.exhibits, Option.map_none, Option.toList_none, Option.map_some,
        Option.toList_some, List.nil_append]
      simp only [List.append_assoc]
      exact List.perm_append_comm.trans (by simp only [List.append_assoc]; exact .refl _)
    · refine Panel.did_of_gains hg rfl rfl ?_ ?_ ?_ ?_ <;>
        simp only [Panel.addCounter, hn, Option.isNone_some, Bool.false_eq_true, if_false] <;> try rfl
      exact Panel.addHandler_contents _ _
  | gauge a =>
    have hg := C20_add_gauge (.mk h ps hs ss) a
    simp only [Panel.with_]
    rcases hn : h.gauge with _ | b
    · refine Panel.did_of_gains hg rfl rfl ?_ ?_ ?_ ?_ <;> simp only [Panel.addGauge, hn, Option.isNone_none, if_true] <;>
        try rfl
      simp only [Panel.contents, PanelHead.exhibits, hn, PanelStep.exhibits, Option.map_none, Option.toList_none, Option.map_some,
        Option.toList_some, List.append_nil]
      simp only [List.append_assoc]
      refine List.Perm.append_left _ ?_
      exact List.perm_append_comm.trans (by simp only [List.append_assoc]; exact .refl _)
    · refine Panel.did_of_gains hg rfl rfl ?_ ?_ ?_ ?_ <;>
        simp only [Panel.addGauge, hn, Option.isNone_some, Bool.false_eq_true, if_false] <;> try rfl
      exact Panel.addHandler_contents _ _
  | meter a =>
    have hg := C20_add_meter (.mk h ps hs ss) a
    simp only [Panel.with_]
    rcases hn : h.meter with _ | b
    · refine Panel.did_of_gains hg rfl rfl ?_ ?_ ?_ ?_ <;> simp only [Panel.addMeter, hn, Option.isNone_none, if_true] <;>
        try rfl
      simp only [Panel.contents, PanelHead.exhibits, hn, PanelStep.exhibits, Option.map_none, Option.toList_none, Option.map_some,
        Option.toList_some, List.append_nil]
      simp only [List.append_assoc]
      refine List.Perm.append_left _ (List.Perm.append_left _ ?_)
      exact List.perm_append_comm.trans (by simp only [List.append_assoc]; exact .refl _)
    · refine Panel.did_of_gains hg rfl rfl ?_ ?_ ?_ ?_ <;>
        simp only [Panel.addMeter, hn, Option.isNone_some, Bool.false_eq_true, if_false] <;> try rfl
      exact Panel.addHandler_contents _ _
  | histogram a =>
    have hg := C20_add_histogram (.mk h ps hs ss) a
    simp only [Panel.with_]
    rcases hn : h.histogram with _ | b
    · refine Panel.did_of_gains hg rfl rfl ?_ ?_ ?_ ?_ <;> simp only [Panel.addHistogram, hn, Option.isNone_none, if_true] <;>
        try rfl
      simp only [Panel.contents, PanelHead.exhibits, hn, PanelStep.exhibits, Option.map_none, Option.toList_none, Option.map_some,
        Option.toList_some, List.append_nil]
      simp only [List.append_assoc]
      refine List.Perm.append_left _ (List.Perm.append_left _ (List.Perm.append_left _ ?_))
      exact List.perm_append_comm.trans (by simp only [List.append_assoc]; exact .refl _)
    · refine Panel.did_of_gains hg rfl rfl ?_ ?_ ?_ ?_ <;>
        simp only [Panel.addHistogram, hn, Option.isNone_some, Bool.false_eq_true, if_false] <;> try rfl
      exact Panel.addHandler_contents _ _
  | instrument i =>
    refine Panel.did_of_gains (C20_add_instrument _ i) rfl rfl rfl rfl rfl ?_
    have := Panel.addHandler_contents (.mk h ps hs ss) (.instrument (.new i) : Handler σ L)
    rw [Handler.exhibits] at this; exact this
  | panel q =>
    refine Panel.did_of_gains (C20_add_panel _ q) rfl rfl rfl rfl rfl ?_
    simp only [Panel.with_, Panel.addPanel, Panel.contents, exhibitsOfPanels_append, exhibitsOfPanels, List.append_nil,
      PanelStep.exhibits, List.append_assoc]
    refine List.Perm.append_left _ (List.Perm.append_left _ ?_)
    exact List.perm_append_comm.trans (by simp only [List.append_assoc]; exact .refl _)
  | handler x =>
    exact Panel.did_of_gains (x := .handler x) (C20_add_handler (.mk h ps hs ss) x) rfl rfl rfl rfl rfl
      (Panel.addHandler_contents (.mk h ps hs ss) x)
  | snapshooter s =>
    refine Panel.did_of_gains (C20_add_snapshooter _ s) rfl rfl rfl rfl rfl ?_
    simp only [Panel.with_, Panel.addSnapshooter, Panel.contents, exhibitsOfSnapshooters_append, exhibitsOfSnapshooters,
      List.append_nil, PanelStep.exhibits, List.append_assoc]
    refine List.Perm.append_left _ (List.Perm.append_left _ (List.Perm.append_left _ ?_))
    exact List.perm_append_comm

theorem latestName_append (ts us : List TextSetting) (n : Option String) :
    latestName (ts ++ us) n = latestName us (latestName ts n) := by
  induction ts generalizing n with
  | nil => rfl
  | cons t ts ih => rw [List.cons_append, latestName_cons t _ n {}, ih, ← latestName_cons]

theorem latestDescr_append (ts us : List TextSetting) (d : Descr) :
    latestDescr (ts ++ us) d = latestDescr us (latestDescr ts d) := by
  induction ts generalizing d with
  | nil => rfl
  | cons t ts ih => rw [List.cons_append, latestDescr_cons t _ "" d, ih, ← latestDescr_cons]

theorem latestActivity_append (ts us : List ActivitySetting) (a : Activity) :
    latestActivity (ts ++ us) a = latestActivity us (latestActivity ts a) := by
  induction ts generalizing a with
  | nil => rfl
  | cons t ts ih => rw [List.cons_append, latestActivity_cons, ih, ← latestActivity_cons]

theorem filterMap_cons_toList {A B : Type} (f : A → Option B) (x : A) (xs : List A) :
    (x :: xs).filterMap f = (f x).toList ++ xs.filterMap f := by
  rw [List.filterMap_cons]
  cases f x <;> rfl

/-- A panel, whatever is done with it and in whatever order: it has the last name, title, description, limit and flag that
were set, and still its label filter; exactly what was added reacts to observations in addition to what did before;
exactly what was added is shown in addition to what was shown before. -/
theorem C69_panel (p : Panel σ L) (xs : List (PanelStep σ L)) :
    let p' := withAll Panel.with_ p xs
    p'.head.name = latestName (xs.filterMap PanelStep.text?) p.head.name ∧
    p'.head.descr = latestDescr (xs.filterMap PanelStep.text?) p.head.descr ∧
    p'.head.activity = latestActivity (xs.filterMap PanelStep.activity?) p.head.activity ∧
    p'.head.labelFilter = p.head.labelFilter ∧
    p'.leaves.Perm (p.leaves ++ behind p.head.labelFilter (xs.flatMap PanelStep.leaves)) ∧
    p'.exhibits.Perm ((p.contents ++ xs.flatMap PanelStep.exhibits).map
      (Exhibit.inside p'.head.name (some p'.head.activity))) := by
  have main : ∀ p : Panel σ L,
      let p' := withAll Panel.with_ p xs
      p'.head.name = latestName (xs.filterMap PanelStep.text?) p.head.name ∧
      p'.head.descr = latestDescr (xs.filterMap PanelStep.text?) p.head.descr ∧
      p'.head.activity = latestActivity (xs.filterMap PanelStep.activity?) p.head.activity ∧
      p'.head.labelFilter = p.head.labelFilter ∧
      p'.leaves.Perm (p.leaves ++ behind p.head.labelFilter (xs.flatMap PanelStep.leaves)) ∧
      p'.contents.Perm (p.contents ++ xs.flatMap PanelStep.exhibits) := by
    clear p
    induction xs with
    | nil =>
      intro p
      refine ⟨rfl, rfl, rfl, rfl, ?_, ?_⟩
      · simp only [List.flatMap_nil, behind, List.map_nil, List.append_nil]; exact .refl _
      · simp only [List.flatMap_nil, List.append_nil]; exact .refl _
    | cons x xs ih =>
      intro p
      obtain ⟨h1, h2, h3, h4, h5, h6⟩ := ih (p.with_ x)
      have hd := p.with_did x
      show (withAll Panel.with_ (p.with_ x) xs).head.name = _ ∧ _
      refine ⟨?_, ?_, ?_, ?_, ?_, ?_⟩
      · rw [h1, hd.name, filterMap_cons_toList, latestName_append]
      · rw [withAll_cons, h2, hd.descr, filterMap_cons_toList, latestDescr_append]
      · rw [withAll_cons, h3, hd.activity, filterMap_cons_toList, latestActivity_append]
      · rw [withAll_cons, h4, hd.filter]
      · rw [withAll_cons]
        refine h5.trans ?_
        rw [hd.filter, List.flatMap_cons, behind_append, ← List.append_assoc]
        exact hd.leaves.append_right _
      · rw [withAll_cons]
        refine h6.trans ?_
        rw [List.flatMap_cons, ← List.append_assoc]
        exact hd.contents.append_right _
  obtain ⟨h1, h2, h3, h4, h5, h6⟩ := main p
  refine ⟨h1, h2, h3, h4, h5, ?_⟩
  have : ∀ q : Panel σ L, q.exhibits = q.contents.map (Exhibit.inside q.head.name (some q.head.activity)) := fun q => by
    cases q; rfl
  rw [this]
  exact h6.map _

/-! ## Collections with names -/

namespace RosterChange
variable {X : Type} (name : X → Option String)

/-- One change. -/
def run (xs : List X) : RosterChange X → List X
  | .add x => if (name x).isSome && xs.any (fun y => name y == name x) then xs else xs ++ [x]
  | .remove n => xs.filter fun y => name y != some n

theorem since_of_not_removes {n : String} {cs : List (RosterChange X)} (h : removes n cs = false) : since n cs = cs := by
  cases cs with
  | nil => rfl
  | cons c cs => simp only [since, h, Bool.false_eq_true, if_false]

theorem holders_spec (n : String) (xs : List X) (cs : List (RosterChange X)) :
    (withAll (run name) xs cs).filter (name · == some n) = holders name n (xs.filter (name · == some n)) cs := by
  induction cs generalizing xs with
  | nil =>
    simp only [withAll, List.foldl_nil, holders, removes, List.any_nil, Bool.false_eq_true, if_false, since, List.filterMap_nil,
      List.filter_nil, List.take_nil]
    cases xs.filter (name · == some n) <;> rfl
  | cons c cs ih =>
    rw [withAll_cons, ih]
    cases c with
    | remove m =>
      by_cases hm : m = n
      · subst hm
        have h0 : (run name xs (.remove m)).filter (name · == some m) = [] := by
          simp only [run, List.filter_filter, List.filter_eq_nil_iff]
          intro x _; simp
        rw [h0]
        have hr : removes m (.remove m :: cs) = true := by simp [removes]
        by_cases hrem : removes m cs = true
        · simp only [holders, hr, hrem, if_true, since]
        · simp only [holders, hr, hrem, if_true, since, if_false, Bool.false_eq_true]
      · have h0 : (run name xs (.remove m)).filter (name · == some n) = xs.filter (name · == some n) := by
          simp only [run, List.filter_filter]
          refine List.filter_congr fun x _ => ?_
          by_cases hx : name x = some n
          · simp [hx, Ne.symm hm]
          · simp [hx]
        have hr : removes n (.remove m :: cs) = removes n cs := by simp [removes, hm]
        rw [h0]
        simp only [holders, hr, since]
        by_cases hrem : removes n cs = true
        · simp only [hrem, if_true]
        · simp only [hrem, if_false, since_of_not_removes (Bool.not_eq_true _ ▸ hrem), List.filterMap_cons, added?,
            Bool.false_eq_true]
    | add x =>
      have hr : removes n (.add x :: cs) = removes n cs := by simp [removes]
      by_cases hx : name x = some n
      · by_cases hrem : removes n cs = true
        · simp only [holders, hr, hrem, if_true, since]
        · have hrem' : removes n cs = false := by simpa using hrem
          simp only [holders, hr, hrem', Bool.false_eq_true, if_false, since]
          rcases hB : xs.filter (name · == some n) with _ | ⟨y, ys⟩
          · have hany : xs.any (fun y => name y == name x) = false := by
              rw [List.any_eq_false]
              intro y hy
              rw [List.filter_eq_nil_iff] at hB
              rw [hx]; exact hB y hy
            have h0 : (run name xs (.add x)).filter (name · == some n) = [x] := by
              simp only [run, hany, Bool.and_false, Bool.false_eq_true, if_false, List.filter_append, hB, List.nil_append]
              simp [hx]
            rw [h0]
            simp [added?, hx]
          · have hany : xs.any (fun y => name y == name x) = true := by
              rw [List.any_eq_true]
              have hy : y ∈ xs.filter (name · == some n) := by rw [hB]; exact .head _
              exact ⟨y, (List.mem_filter.mp hy).1, by rw [hx]; exact (List.mem_filter.mp hy).2⟩
            have h0 : run name xs (.add x) = xs := by
              have hs : (name x).isSome = true := by rw [hx]; rfl
              simp only [run, hany, hs, Bool.and_true, if_true]
            rw [h0, hB]
      · have h0 : (run name xs (.add x)).filter (name · == some n) = xs.filter (name · == some n) := by
          simp only [run]
          split
          · rfl
          · simp [hx]
        rw [h0]
        simp only [holders, hr, since]
        by_cases hrem : removes n cs = true
        · simp only [hrem, if_true]
        · have hrem' : removes n cs = false := by simpa using hrem
          simp only [hrem', Bool.false_eq_true, if_false, since_of_not_removes hrem', List.filterMap_cons, added?]
          simp [hx]

theorem unnamed_spec (xs : List X) (cs : List (RosterChange X)) :
    (withAll (run name) xs cs).filter (name · == none) = (xs ++ cs.filterMap added?).filter (name · == none) := by
  induction cs generalizing xs with
  | nil => simp [withAll]
  | cons c cs ih =>
    rw [withAll_cons, ih]
    simp only [List.filter_append, List.filterMap_cons]
    cases c with
    | remove m =>
      simp only [run, added?, List.filter_filter]
      congr 1
      refine List.filter_congr fun x _ => ?_
      cases name x <;> rfl
    | add x =>
      simp only [run, added?]
      rcases hx : name x with _ | n
      · simp [hx]
      · split <;> simp [hx]

theorem order_spec (xs : List X) (cs : List (RosterChange X)) :
    (withAll (run name) xs cs).Sublist (xs ++ cs.filterMap added?) := by
  induction cs generalizing xs with
  | nil => simp [withAll]
  | cons c cs ih =>
    rw [withAll_cons]
    refine (ih _).trans ?_
    cases c with
    | remove m => exact (List.filter_sublist).append (.refl _)
    | add x =>
      simp only [run, List.filterMap_cons, added?]
      split
      · exact .append (.refl _) (List.sublist_cons_self _ _)
      · simp

end RosterChange

/-- What became of a collection, of which some members have names. -/
structure Collected {X : Type} (name : X → Option String) (before : List X) (changes : List (RosterChange X)) (after : List X) : Prop where
  /-- Under each name there is who it was before unless it was removed, and otherwise who came first after that. -/
  named : ∀ n, after.filter (name · == some n) = RosterChange.holders name n (before.filter (name · == some n)) changes
  /-- Those without a name are all there. -/
  unnamed : after.filter (name · == none) = (before ++ changes.filterMap RosterChange.added?).filter (name · == none)
  /-- They are in the order in which they were added. -/
  order : after.Sublist (before ++ changes.filterMap RosterChange.added?)

theorem Collected.of_run {X : Type} (name : X → Option String) (xs : List X) (cs : List (RosterChange X)) :
    Collected name xs cs (withAll (RosterChange.run name) xs cs) :=
  ⟨fun n => RosterChange.holders_spec name n xs cs, RosterChange.unnamed_spec name xs cs, RosterChange.order_spec name xs cs⟩

/-! ## Cockpits -/

theorem Cockpit.addPanel_run (c : Cockpit σ L) (p : Panel σ L) :
    c.addPanel p = { c with panels := RosterChange.run Panel.name c.panels (.add p) } := by
  have hany : ∀ n, (c.panels.any fun q => match q.name with
      | some m => m == n
      | none => false) = c.panels.any fun q => q.name == some n := fun n => by
    congr 1; funext q; cases q.name <;> rfl
  unfold Cockpit.addPanel RosterChange.run
  cases hn : p.name with
  | none => simp only [hn, Option.isSome_none, Bool.false_and, Bool.false_eq_true, if_false]
  | some n =>
    simp only [hn, Option.isSome_some, Bool.true_and]
    refine (if_congr (iff_of_eq (congrArg (· = true) (hany n))) rfl rfl).trans ?_
    split <;> rfl

theorem Cockpit.removePanel_run (c : Cockpit σ L) (n : String) :
    c.removePanel n = { c with panels := RosterChange.run Panel.name c.panels (.remove n) } := by
  unfold Cockpit.removePanel RosterChange.run
  congr 2; funext q
  cases q.name <;> rfl

section
open CockpitStep

theorem Cockpit.withAll_eq (c : Cockpit σ L) (xs : List (CockpitStep σ L)) :
    withAll Cockpit.with_ c xs =
      { head :=
          { name := latestName (xs.filterMap text?) c.head.name
            descr := latestDescr (xs.filterMap text?) c.head.descr
            activity := latestActivity (xs.filterMap activity?) c.head.activity }
        panels := withAll (RosterChange.run Panel.name) c.panels (xs.filterMap panels?)
        handlers := c.handlers ++ xs.filterMap handler?
        snapshooters := c.snapshooters ++ xs.filterMap snapshooter? } := by
  induction xs generalizing c with
  | nil => simp [withAll, latestName, latestDescr, latestActivity, lastSet, latest]
  | cons x xs ih =>
    rw [withAll_cons, ih]
    cases x with
    | text t =>
      have ht : c.with_ (.text t) = { c with head := { c.head with
          name := (t.applyOptional c.head.name c.head.descr).1, descr := (t.applyOptional c.head.name c.head.descr).2 } } := by
        cases t <;> rfl
      simp only [List.filterMap_cons, text?, activity?, panels?, handler?, snapshooter?,
        latestName_cons t _ c.head.name c.head.descr, latestDescr_cons_optional t _ c.head.name c.head.descr, ht]
    | activity s =>
      have hs : c.with_ (.activity s) = { c with head := { c.head with activity := c.head.activity.with_ s } } := by
        cases s <;> rfl
      simp only [List.filterMap_cons, text?, activity?, panels?, handler?, snapshooter?, latestActivity_cons, hs]
    | panel p =>
      simp only [List.filterMap_cons, text?, activity?, panels?, handler?, snapshooter?, Cockpit.with_, Cockpit.addPanel_run,
        withAll_cons]
    | removePanel n =>
      simp only [List.filterMap_cons, text?, activity?, panels?, handler?, snapshooter?, Cockpit.with_, Cockpit.removePanel_run,
        withAll_cons]
    | handler h =>
      simp only [List.filterMap_cons, text?, activity?, panels?, handler?, snapshooter?, Cockpit.with_, Cockpit.addHandler,
        List.append_assoc, List.singleton_append]
    | snapshooter s =>
      simp only [List.filterMap_cons, text?, activity?, panels?, handler?, snapshooter?, Cockpit.with_, Cockpit.addSnapshooter,
        List.append_assoc, List.singleton_append]

/-- A cockpit, whatever is done with it and in whatever order. -/
theorem C69_cockpit (c : Cockpit σ L) (xs : List (CockpitStep σ L)) :
    let c' := withAll Cockpit.with_ c xs
    c'.head.name = latestName (xs.filterMap text?) c.head.name ∧
    c'.head.descr = latestDescr (xs.filterMap text?) c.head.descr ∧
    c'.head.activity = latestActivity (xs.filterMap activity?) c.head.activity ∧
    Collected Panel.name c.panels (xs.filterMap panels?) c'.panels ∧
    c'.handlers = c.handlers ++ xs.filterMap handler? ∧
    c'.snapshooters = c.snapshooters ++ xs.filterMap snapshooter? := by
  rw [Cockpit.withAll_eq]
  exact ⟨rfl, rfl, rfl, .of_run _ _ _, rfl, rfl⟩

end

/-! ## Processors and mounts -/

theorem ProcessorState.addCockpit_run (s : ProcessorState σ L) (c : Cockpit σ L) :
    s.addCockpit c = { s with cockpits := RosterChange.run Cockpit.name s.cockpits (.add c) } := by
  have hany : ∀ n, (s.cockpits.any fun q => match q.name with
      | some m => m == n
      | none => false) = s.cockpits.any fun q => q.name == some n := fun n => by
    congr 1; funext q; cases q.name <;> rfl
  unfold ProcessorState.addCockpit RosterChange.run
  cases hn : c.name with
  | none => simp only [hn, Option.isSome_none, Bool.false_and, Bool.false_eq_true, if_false]
  | some n =>
    simp only [hn, Option.isSome_some, Bool.true_and]
    refine (if_congr (iff_of_eq (congrArg (· = true) (hany n))) rfl rfl).trans ?_
    split <;> rfl

section
open ProcessorStep

theorem ProcessorState.withAll_eq (p : ProcessorState σ L) (xs : List (ProcessorStep σ L)) :
    withAll ProcessorState.with_ p xs =
      { name := (lastSet name? xs).or p.name
        descr := p.descr
        activity := latestActivity (xs.filterMap activity?) p.activity
        cockpits := withAll (RosterChange.run Cockpit.name) p.cockpits (xs.filterMap cockpits?)
        handlers := p.handlers ++ xs.filterMap handler?
        snapshooters := p.snapshooters ++ xs.filterMap snapshooter? } := by
  induction xs generalizing p with
  | nil => simp [withAll, latestActivity, lastSet, latest]
  | cons x xs ih =>
    rw [withAll_cons, ih]
    cases x with
    | name s =>
      simp [List.filterMap_cons, name?, activity?, cockpits?, handler?, snapshooter?, lastSet_cons, ProcessorState.with_,
        ProcessorState.setName]
    | activity s =>
      have hs : p.with_ (.activity s) = { p with activity := p.activity.with_ s } := by cases s <;> rfl
      simp [List.filterMap_cons, name?, activity?, cockpits?, handler?, snapshooter?, lastSet_cons, latestActivity_cons, hs]
    | cockpit c =>
      simp [List.filterMap_cons, name?, activity?, cockpits?, handler?, snapshooter?, lastSet_cons,
        ProcessorState.with_, ProcessorState.addCockpit_run, withAll_cons]
    | handler h =>
      simp [List.filterMap_cons, name?, activity?, cockpits?, handler?, snapshooter?, lastSet_cons,
        ProcessorState.with_, ProcessorState.addHandler]
    | snapshooter s =>
      simp [List.filterMap_cons, name?, activity?, cockpits?, handler?, snapshooter?, lastSet_cons,
        ProcessorState.with_, ProcessorState.addSnapshooter]

/-- A processor, whatever is done with it and in whatever order. -/
theorem C69_processor (p : ProcessorState σ L) (xs : List (ProcessorStep σ L)) :
    let p' := withAll ProcessorState.with_ p xs
    p'.name = (lastSet name? xs).or p.name ∧ p'.descr = p.descr ∧
    p'.activity = latestActivity (xs.filterMap activity?) p.activity ∧
    Collected Cockpit.name p.cockpits (xs.filterMap cockpits?) p'.cockpits ∧
    p'.handlers = p.handlers ++ xs.filterMap handler? ∧
    p'.snapshooters = p.snapshooters ++ xs.filterMap snapshooter? := by
  rw [ProcessorState.withAll_eq]
  exact ⟨rfl, rfl, rfl, .of_run _ _ _, rfl, rfl⟩

end

section
open MountStep

/-- A mount, whatever is done with it and in whatever order. -/
theorem C69_mount (h : MountHead) (ns : List (Node σ L)) (ss : List (Snapshooter σ L)) (xs : List (MountStep σ L)) :
    withAll Node.with_ (.mount h ns ss) xs =
      .mount { h with name := (lastSet name? xs).or h.name, maxInactivity := (lastSet limit? xs).or h.maxInactivity }
        (ns ++ xs.filterMap processor?) (ss ++ xs.filterMap snapshooter?) := by
  induction xs generalizing h ns ss with
  | nil => simp [withAll, lastSet]
  | cons x xs ih =>
    rw [withAll_cons]
    cases x with
    | name s =>
      simp only [Node.with_, ih]
      simp [List.filterMap_cons, name?, limit?, processor?, snapshooter?, lastSet_cons]
    | inactivityLimit d =>
      simp only [Node.with_, ih]
      simp [List.filterMap_cons, name?, limit?, processor?, snapshooter?, lastSet_cons]
    | processor n =>
      simp only [Node.with_, Node.addProcessor, ih]
      simp [List.filterMap_cons, name?, limit?, processor?, snapshooter?, lastSet_cons]
    | snapshooter s =>
      simp only [Node.with_, Node.addSnapshooter, ih]
      simp [List.filterMap_cons, name?, limit?, processor?, snapshooter?, lastSet_cons]

end

/-! ## Polled and constant values -/

section
open PollingSetting

/-- A polling instrument. -/
theorem PollingInstrument.withAll_eq (p : PollingInstrument σ L) (ss : List PollingSetting) :
    withAll PollingInstrument.with_ p ss =
      { name := latest TextSetting.name? (ss.filterMap text?) p.name
        descr := latestDescr (ss.filterMap text?) p.descr
        poll := p.poll
        createGroupWithName := latest group? ss p.createGroupWithName } := by
  induction ss generalizing p with
  | nil => rfl
  | cons s ss ih =>
    rw [withAll_cons, ih]
    cases s with
    | text t =>
      simp only [List.filterMap_cons, text?, latest_name_cons t _ p.name p.descr, latestDescr_cons t _ p.name p.descr]
      simp [PollingInstrument.with_, latest_cons, group?]
    | createGroupWithName b => simp [List.filterMap_cons, PollingInstrument.with_, latest_cons, text?, group?]

end

/-- The texts of something whose values do not have a group of their own. A text is left out if there is an item with the
same name already. -/
def textsFor (into : Snapshot) (name : String) (descr : Descr) (d : Bool) : Snapshot :=
  if d then
    ((descr.title.toList.map fun t => ("_title_" ++ name, ItemKind.text t)) ++
      (descr.description.toList.map fun t => ("_description_" ++ name, ItemKind.text t))).filter
        fun x : String × ItemKind => !into.any fun y => y.1 == x.1
  else []

theorem putPostfixedDescriptives_eq (descr : Descr) (name : String) (s : Snapshot) (d : Bool) :
    putPostfixedDescriptives descr name s d = s ++ textsFor s name descr d := by
  unfold putPostfixedDescriptives textsFor
  cases d with
  | false => simp
  | true =>
    simp only [if_true]
    have h1 : ("_title" ++ "_" : String) = "_title_" := rfl
    have h2 : ("_description" ++ "_" : String) = "_description_" := rfl
    have hne : "_title_" ++ name ≠ "_description_" ++ name := by
      intro h
      have := congrArg String.toList h
      simp at this
    rw [h1, h2]
    rcases descr with ⟨title, description⟩
    have hone : ∀ (label : String) (t : String) (s : Snapshot), putText label (some t) s =
        s ++ [(label, ItemKind.text t)].filter fun x : String × ItemKind => !s.any fun y => y.1 == x.1 := by
      intro label t s
      simp only [putText, Snapshot.hasName, Snapshot.push, List.filter_cons, List.filter_nil]
      by_cases h : (List.any s fun y => y.1 == label) = true
      · simp only [h, if_true, Bool.not_true, Bool.false_eq_true, if_false, List.append_nil]
      · simp only [h, if_false, Bool.not_false, if_true, Bool.false_eq_true]
    cases title with
    | none =>
      cases description with
      | none => simp [putText]
      | some t => exact hone ("_description_" ++ name) t s
    | some t =>
      cases description with
      | none => exact hone ("_title_" ++ name) t s
      | some u =>
        have hkeep : ((s ++ [("_title_" ++ name, ItemKind.text t)].filter fun x : String × ItemKind =>
            !s.any fun y => y.1 == x.1).any fun y => y.1 == "_description_" ++ name) =
            s.any fun y => y.1 == "_description_" ++ name := by
          simp only [List.any_append, List.filter_cons, List.filter_nil]
          split <;> simp [hne]
        rw [hone, hone, List.append_assoc]
        congr 1
        simp only [Option.toList_some, List.map_cons, List.map_nil, List.filter_append]
        congr 1
        refine List.filter_congr fun x hx => ?_
        obtain rfl := List.mem_singleton.mp hx
        exact congrArg (!·) hkeep

variable [Custom σ L]

open PollingSetting in
/-- What a new polling instrument shows after some settings: the last texts, then what it polls, in a group with the last
name if the last setting says so, and otherwise without a group. -/
theorem C69_polling (name : String) (poll : Snapshooter σ L) (ss : List PollingSetting) {into into' : Snapshot} {d : Bool}
    {x' : Snapshooter σ L} {e : Env} {k k' : Nat}
    (h : (withAll PollingInstrument.with_ (.newWithDefaults name poll) ss).toSnapshooter.putSnapshot d into e k =
      some ((x', into'), k')) :
    let n := latest TextSetting.name? (ss.filterMap text?) name
    let texts := textsFor into n (latestDescr (ss.filterMap text?) {}) d
    if latest group? ss false then
      ∃ poll' items, poll.putSnapshot d [] e k = some ((poll', items), k') ∧ into' = into ++ texts ++ [(n, .snapshot items)]
    else ∃ poll', poll.putSnapshot d (into ++ texts) e k = some ((poll', into'), k') := by
  rw [PollingInstrument.withAll_eq] at h
  simp only [PollingInstrument.toSnapshooter, PollingInstrument.newWithDefaults, Snapshooter.putSnapshot,
    putPostfixedDescriptives_eq] at h
  by_cases hg : latest group? ss false = true
  · simp only [hg, if_true, M.bind_eq_some, M.run_pure, Option.some.injEq, Prod.mk.injEq] at h ⊢
    obtain ⟨⟨poll', items⟩, k₁, hp, ⟨-, rfl⟩, rfl⟩ := h
    exact ⟨poll', items, hp, rfl⟩
  · simp only [hg, if_false, Bool.false_eq_true, M.bind_eq_some, M.run_pure, Option.some.injEq, Prod.mk.injEq] at h ⊢
    obtain ⟨⟨poll', items⟩, k₁, hp, ⟨-, rfl⟩, rfl⟩ := h
    exact ⟨poll', hp⟩

/-- What a constant shows after some settings: the value under the last name, after the last texts. -/
theorem C69_constant (name : String) (v : ItemKind) (ts : List TextSetting) (into : Snapshot) (d : Bool) (e : Env) (k : Nat) :
    let n := latest TextSetting.name? ts name
    ∃ x' : Snapshooter σ L, (withAll ConstantValue.with_ (.new name v) ts).toSnapshooter.putSnapshot d into e k =
      some ((x', into ++ textsFor into n (latestDescr ts {}) d ++ [(n, v)]), k) := by
  have hw : ∀ c : ConstantValue, withAll ConstantValue.with_ c ts =
      { name := latest TextSetting.name? ts c.name, descr := latestDescr ts c.descr, value := c.value } := by
    induction ts with
    | nil => intro c; rfl
    | cons t ts ih =>
      intro c
      rw [withAll_cons, ih, latest_name_cons t ts c.name c.descr, latestDescr_cons t ts c.name c.descr]
      rfl
  rw [hw]
  exact ⟨_, by
    simp only [ConstantValue.toSnapshooter, ConstantValue.new, Snapshooter.putSnapshot, putPostfixedDescriptives_eq]; rfl⟩

/-! ## Drivers -/

section
open DriverSetting

theorem DriverBuilder.withAll_eq (b : DriverBuilder) (ss : List DriverSetting) :
    withAll DriverBuilder.with_ b ss =
      { name := latestName (ss.filterMap text?) b.name
        descr := latestDescr (ss.filterMap text?) b.descr
        strategy := latest strategy? ss b.strategy
        withDriverMetrics := latest metrics? ss b.withDriverMetrics } := by
  induction ss generalizing b with
  | nil => rfl
  | cons s ss ih =>
    rw [withAll_cons, ih]
    cases s with
    | text t =>
      simp only [List.filterMap_cons, text?, latestName_cons t _ b.name b.descr, latestDescr_cons_optional t _ b.name b.descr]
      simp [DriverBuilder.with_, latest_cons, strategy?, metrics?]
    | processingStrategy s => simp [List.filterMap_cons, DriverBuilder.with_, latest_cons, text?, strategy?, metrics?]
    | driverMetrics b => simp [List.filterMap_cons, DriverBuilder.with_, latest_cons, text?, strategy?, metrics?]

/-- The thread of a driver that a builder built: `programs` are what the holders of its handles will send to it. -/
def DriverBuilder.Builds (e : Env) (k : Nat) (b : DriverBuilder) (programs : List (SendThread (DriverMsg σ L)))
    (t : DriverThread σ L) : Prop :=
  ∃ (k₀ : Nat) (state : LoopState σ L) (ahead : List (List Nat)) (blind : List Bool), b.build e k₀ = some (state, k) ∧
    t = .running { state, receiver := { chan := .fresh none true programs, ahead }, blind }

omit [Custom σ L] in
/-- A driver that was built is a new driver (as in all the other properties of drivers) with the last name, title,
description, strategy and flag that were set. Without settings it has no name and no texts, drops observations that are
older than 30 seconds but keeps changes by deltas, and shows its own metrics. -/
theorem C69_driver {e : Env} {k : Nat} {name : Option String} {ss : List DriverSetting}
    {programs : List (SendThread (DriverMsg σ L))} {t : DriverThread σ L}
    (h : (withAll DriverBuilder.with_ ((name.map DriverBuilder.new).getD {}) ss).Builds e k programs t) :
    NewDriver e k (latestName (ss.filterMap text?) name) (latestDescr (ss.filterMap text?) {})
      (latest strategy? ss (.dropOlderThan 30000000000 false)) (latest metrics? ss true) programs t := by
  obtain ⟨k₀, state, ahead, blind, hb, rfl⟩ := h
  refine ⟨k₀, state, ahead, blind, ?_, rfl⟩
  rw [DriverBuilder.withAll_eq] at hb
  cases name <;> exact hb

variable [DecidableEq L] [CustomProcessor σ]

omit [DecidableEq L] [CustomProcessor σ] [Custom σ L] in
theorem putInTurn_appends {X : Type} {put : X → Snapshot → M (X × Snapshot)}
    (hput : ∀ x into x' into' e k k', put x into e k = some ((x', into'), k') → into <+: into')
    {e : Env} {k k' : Nat} {xs xs' : List X} {into into' : Snapshot} (h : PutInTurn put e k xs into xs' into' k') :
    ∃ items, into' = into ++ items := by
  induction h with
  | nil => exact ⟨[], by simp⟩
  | cons hx _ ih =>
    obtain ⟨a, rfl⟩ := hput _ _ _ _ _ _ _ hx
    obtain ⟨b, rfl⟩ := ih
    exact ⟨a ++ b, by simp⟩

/-- Each answer of a driver that was built is in a group with the last name that was set, or in none; in the group there
are at first the last title and description, and at last the metrics of the driver, unless they were disabled. -/
theorem C69_driver_answers {e : Env} {k k' : Nat} {name : Option String} {ss : List DriverSetting}
    {programs : List (SendThread (DriverMsg σ L))} {t t' : DriverThread σ L} {log : List (Iteration σ L)}
    (hb : (withAll DriverBuilder.with_ ((name.map DriverBuilder.new).getD {}) ss).Builds e k programs t)
    (h : DriverLife e k t log k' t') {i : Iteration σ L} (hi : i ∈ log) {id : Nat} {d : Bool}
    (hm : i.message = some (.getSnapshot id d)) {s : Snapshot} (hs : i.answer = some s)
    (ha : CustomAppends σ L) (hp : CustomProcessorAppends σ) :
    ∃ items metrics, MetricsEntry (latest metrics? ss true) metrics ∧
      s = grouped (latestName (ss.filterMap text?) name)
        (driverTexts (latestDescr (ss.filterMap text?) {}) d ++ items ++ metrics) := by
  obtain ⟨before, after, hlog⟩ := List.append_of_mem hi
  obtain ⟨ps, ss', ps', ss'', items₁, items₂, metrics, k₁, k₂, k₃, -, -, h1, h2, h3, h4⟩ :=
    C52_contents (C69_driver hb) h hlog hm hs
  obtain ⟨a, rfl⟩ := putInTurn_appends (fun n into n' into' e k k' h => C45_node ha hp h) h1
  obtain ⟨b, rfl⟩ := putInTurn_appends (fun n into n' into' e k k' h => C45_snapshooter ha h) h2
  exact ⟨a ++ b, metrics, h3, by rw [h4]; simp only [List.append_assoc]⟩

end

/-! ## Adapters -/

/-- Of several modifications the last one counts. -/
theorem C69_modify {I : Type}  [DecidableEq L] [IsInstrument I] (i : I) (labels : Labels L) (fs : List (L → Update → Update))
    (f : L → Update → Update) :
    Hears (withAll InstrumentAdapter.modifyWith (.accepting labels i) (fs ++ [f])) i (onLabelsModified labels.Meant f) := by
  have hw : ∀ a : InstrumentAdapter L I, withAll InstrumentAdapter.modifyWith a (fs ++ [f]) = { a with modifyUpdate := some f } := by
    induction fs with
    | nil => intro a; rfl
    | cons g fs ih => intro a; rw [List.cons_append, withAll_cons, ih]; rfl
  rw [hw]
  exact hears_of _ f { InstrumentAdapter.accepting labels i with modifyUpdate := some f } labels.toFilter_accepts fun _ _ => rfl

/-! ## Examples -/

/-- A counter is added before and after the panel gets its name, which is set twice. -/
def builtPanel : Panel Empty Nat :=
  withAll Panel.with_ (.mk { labelFilter := .acceptAll, activity := { lastActivity := 0 } } [] [] [])
    [.counter (.new { name := "a" }), .text (.name "first"), .activity (.inactivityLimit 5), .text (.title "t"),
      .counter (.new { name := "b" }), .text (.name "second"), .activity (.showActivityState false)]

example : builtPanel.head.name = some "second" ∧ builtPanel.head.descr.title = some "t" ∧
    builtPanel.head.activity = { lastActivity := 0, maxInactivity := some 5, show_ := false } ∧
    builtPanel.leaves.length = 2 ∧ builtPanel.exhibits.map (·.path) = [["second"], ["second"]] := by decide +kernel

/-- A panel with a name and a filter that tells it apart. -/
def panelCalled (n : Option String) (f : LabelFilter Nat) : Panel Empty Nat :=
  .mk { labelFilter := f, name := n, activity := { lastActivity := 0 } } [] [] []

def rebuiltCockpit : Cockpit Empty Nat :=
  withAll Cockpit.with_ { head := { activity := { lastActivity := 0 } } }
    [.panel (panelCalled (some "p") (.one 1)), .panel (panelCalled (some "q") (.one 2)), .panel (panelCalled none (.one 3)),
      .panel (panelCalled (some "p") (.one 4)), .removePanel "p", .panel (panelCalled (some "p") (.one 5)),
      .panel (panelCalled (some "p") (.one 6)), .text (.name "c")]

example : rebuiltCockpit.head.name = some "c" ∧
    rebuiltCockpit.panels.map (fun p => (p.name, [1, 2, 3, 4, 5, 6].filter fun l => p.acceptsLabel l)) =
      [(some "q", [2]), (none, [3]), (some "p", [5])] := by decide +kernel

/-- Built with settings that replace each other. -/
example : (withAll DriverBuilder.with_ (DriverBuilder.new "x")
      [.text (.title "a"), .driverMetrics true, .text (.name "d"), .text (.title "t"), .processingStrategy .processAll,
        .driverMetrics false]).Builds ticking 2 driverPrograms newDriver :=
  ⟨1, _, _, _, rfl, rfl⟩

example : Strategy.default = .dropOlderThan 30000000000 false := rfl

end Metrix
