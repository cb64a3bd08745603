import Verif.Proof.WithinTree
import Verif.Props.C90
import Verif.Props.C45

/-!
# C91: what is added elsewhere does not change what the rest shows

`small.PartOf used large` (in `Verif.Spec.Within`): `large` is `small` with further instruments, panels, handlers, snapshooters and cockpits
at any places. `used` tells which names messages use for cockpits and panels.
-/

namespace Metrix
variable {σ L : Type}

/-- The same happens to both processors, except that to the second one more is added. Then all that the first one shows is also shown by the
second one, in the same order and in the same groups. -/
theorem C91_snapshots [DecidableEq L] [Custom σ L] (hc : CustomStill σ L) (ha : CustomFrames σ L) (hp : CustomAppends σ L) {e : Env}
    (mono : e.Mono) {used : String → Prop} {p p' q q' : Processor σ L} {log log' : List (Nat × Call σ L × Reply)}
    {hs hs' : List (Happening σ L)} (h : Happened e p log hs q) (h' : Happened e p' log' hs' q') (hw : p.state.PartOf used p'.state)
    (hhw : HappeningsPartOf used hs hs') (hr : RingsOk p.state.instruments) (hr' : RingsOk p'.state.instruments)
    (hrs : ∀ a ∈ hs, RingsOk a.instruments) (hrs' : ∀ a ∈ hs', RingsOk a.instruments) (ho : MomentsInOrder log)
    (ho' : MomentsInOrder log') {n : Nat} (hn : ∀ c ∈ log, c.1 ≤ n) (hn' : ∀ c ∈ log', c.1 ≤ n) {into into' s' : Snapshot}
    (hi : into.PartOf into') (hs' : (q'.putSnapshot into' false (e.at n) 0).map (·.1.2) = some s') :
    ∃ s, (q.putSnapshot into false (e.at n) 0).map (·.1.2) = some s ∧ s.PartOf s' := by
  obtain ⟨y, h3, h4⟩ := h.plays hc mono p.state {} n ho hrs (moments_le hn) fun m _ => ProcessorState.alike_refl hr
  obtain ⟨y', h5, h6⟩ := h'.plays hc mono p'.state {} n ho' hrs' (moments_le hn') fun m _ => ProcessorState.alike_refl hr'
  obtain ⟨z, v, h7, h8, _⟩ := hhw.plays hc hw ⟨rfl, rfl, le_rfl⟩ h5
  rw [h3] at h7
  obtain ⟨rfl, _⟩ := Prod.mk.inj (Option.some.inj h7)
  rw [h6.shown hc] at hs'
  obtain ⟨⟨⟨_, _⟩, k⟩, h9, rfl⟩ := Option.map_eq_some_iff.1 hs'
  obtain ⟨⟨_, s⟩, k₁, h10, h11⟩ := h8.put (hc.at e n) ha hp (e.at_frozen n) hi 0 0 _ _ h9
  exact ⟨s, by rw [h4.shown hc, h10]; rfl, h11⟩

/-- The runs report the same numbers of processed and of dropped messages in total, and at least as many updates. -/
theorem C91_totals [DecidableEq L] [Custom σ L] (hc : CustomStill σ L) {e : Env}
    (mono : e.Mono) {used : String → Prop} {p p' q q' : Processor σ L} {log log' : List (Nat × Call σ L × Reply)}
    {hs hs' : List (Happening σ L)} (h : Happened e p log hs q) (h' : Happened e p' log' hs' q') (hw : p.state.PartOf used p'.state)
    (hhw : HappeningsPartOf used hs hs') (hr : RingsOk p.state.instruments) (hr' : RingsOk p'.state.instruments)
    (hrs : ∀ a ∈ hs, RingsOk a.instruments) (hrs' : ∀ a ∈ hs', RingsOk a.instruments) (ho : MomentsInOrder log)
    (ho' : MomentsInOrder log') :
    (totalsOf log).processed = (totalsOf log').processed ∧ (totalsOf log).dropped = (totalsOf log').dropped ∧
      (totalsOf log).updated ≤ (totalsOf log').updated := by
  obtain ⟨n₁, hn₁⟩ := exists_bound (log.map (·.1))
  obtain ⟨n₂, hn₂⟩ := exists_bound (log'.map (·.1))
  obtain ⟨y, h3, _⟩ := h.plays hc mono p.state {} n₁ ho hrs hn₁ fun m _ => ProcessorState.alike_refl hr
  obtain ⟨y', h5, _⟩ := h'.plays hc mono p'.state {} n₂ ho' hrs' hn₂ fun m _ => ProcessorState.alike_refl hr'
  obtain ⟨z, v, h7, _, h8⟩ := hhw.plays hc hw ⟨rfl, rfl, le_rfl⟩ h5
  rw [h3] at h7
  obtain ⟨_, rfl⟩ := Prod.mk.inj (Option.some.inj h7)
  obtain ⟨h9, h10, h11⟩ := h8
  simp only [Tally.plus, Nat.zero_add] at h9 h10 h11
  exact ⟨h9, h10, h11⟩

/-- The groups of the smaller snapshot are in the larger one, with at least the same items. -/
theorem C91_groups {s s' : Snapshot} (h : s.PartOf s') : ∀ {path : List String} {level : Snapshot}, Snapshot.Group path level s →
    ∃ level', Snapshot.Group path level' s' ∧ level.PartOf level'
  | [], _, hg => ⟨s', rfl, by cases hg; exact h⟩
  | n :: path, level, ⟨sub, hm, hg⟩ => by
    have key : ∃ sub' : Snapshot, (n, ItemKind.snapshot sub') ∈ s' ∧ Snapshot.PartOf sub sub' := by
      clear hg
      induction h with
      | nil => cases hm
      | extra x _ ih =>
        obtain ⟨sub', h1, h2⟩ := ih hm
        exact ⟨sub', List.mem_cons_of_mem _ h1, h2⟩
      | same x _ ih =>
        rcases List.mem_cons.1 hm with rfl | hm
        · exact ⟨sub, List.mem_cons_self, .refl _⟩
        · obtain ⟨sub', h1, h2⟩ := ih hm
          exact ⟨sub', List.mem_cons_of_mem _ h1, h2⟩
      | group m h1 _ _ ih =>
        rcases List.mem_cons.1 hm with hm | hm
        · obtain ⟨rfl, hm⟩ := Prod.mk.inj hm
          cases hm
          exact ⟨_, List.mem_cons_self, h1⟩
        · obtain ⟨sub', h1, h2⟩ := ih hm
          exact ⟨sub', List.mem_cons_of_mem _ h1, h2⟩
    obtain ⟨sub', h1, h2⟩ := key
    obtain ⟨level', h3, h4⟩ := C91_groups h2 hg
    exact ⟨level', ⟨sub', h1, h3⟩, h4⟩

/-- Every value in the smaller snapshot is in the larger one, with the same name and in the group with the same path. -/
theorem C91_items {s s' : Snapshot} (h : s.PartOf s') {path : List String} {name : String} {item : ItemKind}
    (hitem : ∀ sub, item ≠ .snapshot sub) (hi : s.HasAt path name item) : s'.HasAt path name item := by
  obtain ⟨level, h1, h2⟩ := hi
  obtain ⟨level', h3, h4⟩ := C91_groups h h1
  refine ⟨level', h3, ?_⟩
  clear h1 h3
  induction h4 with
  | nil => cases h2
  | extra x _ ih => exact List.mem_cons_of_mem _ (ih h2)
  | same x _ ih =>
    rcases List.mem_cons.1 h2 with rfl | h2
    · exact List.mem_cons_self
    · exact List.mem_cons_of_mem _ (ih h2)
  | group m _ _ _ ih =>
    rcases List.mem_cons.1 h2 with h2 | h2
    · exact absurd (Prod.mk.inj h2).2 (hitem _)
    · exact List.mem_cons_of_mem _ (ih h2)

/-! ## Example -/

theorem emptyFrames : CustomFrames Empty Nat := fun s => s.elim

/-- A panel with a counter, and maybe also with a gauge and a panel in it. -/
def roomyPanel (more : Bool) (n : String) : Panel Empty Nat :=
  .mk { labelFilter := .acceptAll, name := some n, activity := ⟨0, none, true⟩, counter := some (.new { name := "n" })
        gauge := if more then some (.new { name := "g" }) else none }
    (if more then [.mk { labelFilter := .acceptAll, activity := ⟨0, none, true⟩, counter := some (.new { name := "m" }) } [] [] []] else [])
    [] []

/-- A cockpit with one such panel, and maybe one more. -/
def roomyCockpit (more : Bool) : Cockpit Empty Nat where
  head := { name := some "c", activity := ⟨0, none, true⟩ }
  panels := if more then [roomyPanel true "z", roomyPanel true "a"] else [roomyPanel false "a"]

/-- A processor with this cockpit. A panel is to be added to it by a message. -/
def roomyProcessor (more : Bool) : Processor Empty Nat where
  state := { name := some "p", activity := ⟨0, some 3000000000, true⟩, cockpits := [roomyCockpit more] }
  receiver := { chan := { Channel.fresh (some 10) true [{ todo := [] }] with queue :=
    [(0, .addPanelToCockpit "c" (roomyPanel more "b")), (0, .observation (.observedOneValue 1 (.signedInteger 5) 0))] } }

def RoomyNames (n : String) : Prop := n = "a" ∨ n = "b" ∨ n = "c"

theorem roomy_panel (n : String) : (roomyPanel false n).PartOf (roomyPanel true n) :=
  .mk ⟨rfl, rfl, rfl, rfl, .inr rfl, .inl rfl, .inl rfl, .inl rfl⟩ (.extra _ .nil) .nil .nil

theorem roomy_cockpit : (roomyCockpit false).PartOf RoomyNames (roomyCockpit true) := by
  refine ⟨rfl, .extra _ (.cons (roomy_panel _) .nil), .nil, .nil, fun n hn => ?_⟩
  have h1 : (roomyCockpit false).panels.map Panel.name = [some "a"] := rfl
  have h2 : (roomyCockpit true).panels.map Panel.name = [some "z", some "a"] := rfl
  simp only [← List.mem_map, h1, h2, List.mem_cons, Option.some.injEq, List.not_mem_nil, or_false]
  constructor
  · exact .inr
  · rintro (rfl | h)
    · rcases hn with h | h | h <;> simp at h
    · exact h

theorem roomy_state : (roomyProcessor false).state.PartOf RoomyNames (roomyProcessor true).state :=
  ⟨rfl, rfl, rfl, .cons roomy_cockpit .nil, .nil, .nil⟩

/-- What happens in one run. -/
theorem roomy_happens (more : Bool)
    (h : (callsAt Processor.call ticking (roomyProcessor more) [(3, .process 6 .processAll)]).isSome) :
    ∃ p' log, log.map (fun c => (c.1, c.2.1)) = [(3, .process 6 .processAll)] ∧
      Happened ticking (roomyProcessor more) log [.message 3 .processAll (.addPanelToCockpit "c" (roomyPanel more "b")),
        .message 3 .processAll (.observation (.observedOneValue 1 (.signedInteger 5) 0))] p' := by
  obtain ⟨p', log, h1, h2⟩ := callsAt_spec h
  refine ⟨p', log, h2, ?_⟩
  have calls : ∀ d ∈ log, d.1 = 3 ∧ ((∃ max, d.2.1 = .process max .processAll) ∨ d.2.1.IsSnapshot) := by
    intro d hd
    have : (d.1, d.2.1) ∈ log.map (fun c => (c.1, c.2.1)) := List.mem_map_of_mem hd
    rw [h2] at this
    simp only [List.mem_cons, Prod.mk.injEq, List.not_mem_nil, or_false] at this
    exact ⟨this.1, .inl ⟨6, this.2⟩⟩
  have sum : (log.map (·.2.1.polls)).sum = 6 := by
    have : log.map (·.2.1.polls) = (log.map (fun c => (c.1, c.2.1))).map (·.2.polls) := by rw [List.map_map]; rfl
    rw [this, h2]; rfl
  have := happened_quiet (p := roomyProcessor more) rfl nofun calls h1
  rw [sum] at this
  exact this

theorem roomy_rings {is : List (Instrument Empty)} (h : ∀ g, .gauge g ∈ is → g.tracking = none) : RingsOk is := by
  intro g r hg hr
  rw [h g hg] at hr
  cases hr

/-- With more panels and more instruments in them, the rest shows the same. -/
example : ∃ q log q' log' hs hs', Happened ticking (roomyProcessor false) log hs q ∧ Happened ticking (roomyProcessor true) log' hs' q' ∧
    log ≠ [] ∧ hs.length = 2 ∧ ∀ n into s', 3 ≤ n → (q'.putSnapshot into false (ticking.at n) 0).map (·.1.2) = some s' →
      ∃ s, (q.putSnapshot into false (ticking.at n) 0).map (·.1.2) = some s ∧ s.PartOf s' := by
  obtain ⟨p₁, log₁, hl₁, h₁⟩ := roomy_happens false (by decide +kernel)
  obtain ⟨p₂, log₂, hl₂, h₂⟩ := roomy_happens true (by decide +kernel)
  have order : ∀ {log : List (Nat × Call Empty Nat × Reply)} {o : Call Empty Nat}, log.map (fun c => (c.1, c.2.1)) = [(3, o)] →
      MomentsInOrder log ∧ (∀ c ∈ log, c.1 = 3) ∧ log ≠ [] := by
    intro log o h
    obtain ⟨c, rfl⟩ := List.length_eq_one_iff.1 ((List.length_map _).symm.trans (congrArg List.length h))
    simp only [List.map_cons, List.map_nil, List.cons.injEq, Prod.mk.injEq] at h
    exact ⟨by simp [MomentsInOrder], by simp [h.1.1], by simp⟩
  refine ⟨p₁, log₁, p₂, log₂, _, _, h₁, h₂, (order hl₁).2.2, rfl, fun n into s' hn hs' => ?_⟩
  have rings : ∀ more, RingsOk (roomyPanel more "b").instruments ∧ RingsOk (roomyProcessor more).state.instruments := by
    intro more
    have h1 : (roomyPanel false "b").instruments = [.counter { name := "n" }] := rfl
    have h2 : (roomyPanel true "b").instruments = [.counter { name := "n" }, .gauge { name := "g" }, .counter { name := "m" }] := rfl
    have h3 : (roomyProcessor false).state.instruments = [.counter { name := "n" }] := rfl
    have h4 : (roomyProcessor true).state.instruments = [.counter { name := "n" }, .gauge { name := "g" }, .counter { name := "m" },
      .counter { name := "n" }, .gauge { name := "g" }, .counter { name := "m" }] := rfl
    cases more with
    | false => rw [h1, h3]; exact ⟨roomy_rings (by simp), roomy_rings (by simp)⟩
    | true => rw [h2, h4]; exact ⟨roomy_rings (by simp), roomy_rings (by simp)⟩
  have happenings : ∀ more, ∀ a ∈ [Happening.message 3 .processAll (.addPanelToCockpit "c" (roomyPanel more "b")),
      .message 3 .processAll (.observation (.observedOneValue 1 (.signedInteger 5) 0))], RingsOk a.instruments := by
    intro more a ha
    simp only [List.mem_cons, List.not_mem_nil, or_false] at ha
    rcases ha with rfl | rfl
    · exact (rings more).1
    · simp [Happening.instruments, Message.instruments, RingsOk]
  exact C91_snapshots emptyStill emptyFrames emptyAppends ticking_mono h₁ h₂ roomy_state
    (.message _ _ (.addPanelToCockpit "c" (.inr (.inr rfl)) (roomy_panel _) (fun m hm => .inr (.inl (Option.some.inj hm).symm)))
      (.message _ _ (.observation _) .nil))
    (rings false).2 (rings true).2 (happenings false) (happenings true) (order hl₁).1 (order hl₂).1
    (fun c hc => by rw [(order hl₁).2.1 c hc]; exact hn) (fun c hc => by rw [(order hl₂).2.1 c hc]; exact hn) (.refl _) hs'

end Metrix
